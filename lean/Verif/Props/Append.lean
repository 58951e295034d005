import Verif.Props.Packages
import Verif.Proofs.SettleJoiners
import Verif.Props.Joiners
import Verif.Props.Clusters
import Verif.Props.Ansi
/-! # Text that grows at its end: C71 -/
namespace Uax29
open Spec

/-- How many of the last tokens of a text may change when more text follows. -/
def unsettled : Pkg → Nat
  | .graphemes => 1
  | _ => 2

theorem settle_segs (p : Pkg) (a b : Bytes) :
    ∃ ts tl, segs (splitAdv (splitFunc p)) a = ts ++ tl ∧ tl.length ≤ unsettled p
      ∧ segs (splitAdv (splitFunc p)) (a ++ b) = ts ++ segs (splitAdv (splitFunc p)) (tl.flatten ++ b) := by
  apply (follows p).settle (trieOf_wf p) (splitAdv_good p) (unsettled p) (by cases p <;> decide)
  intro c c' l1 l2 hl hv
  have two : (∀ left right : List (Nat × Bytes), right <:+ l1 →
        Settles (onChunks Prod.fst (ruleOf p c)) (onChunks Prod.fst (ruleOf p c')) l2 left right) →
      ∃ gs gl, gl ≠ [] ∧ gl.length ≤ 2 ∧ (∀ g ∈ gl, g ≠ []) ∧ greedy (onChunks Prod.fst (ruleOf p c')) l1 = gs ++ gl
        ∧ greedy (onChunks Prod.fst (ruleOf p c)) (l1 ++ l2)
          = gs ++ greedy (onChunks Prod.fst (ruleOf p c)) (gl.flatten ++ l2) :=
    fun h => greedy_settle l2 l1 hl fun left right _ _ hs => h left right hs
  have hvs : ∀ right : List (Nat × Bytes), right <:+ l1 → ∀ x ∈ right.map Prod.fst, (trieOf p).IsValue x := by
    intro right hs x hx
    obtain ⟨y, hy, rfl⟩ := List.mem_map.mp hx
    exact hv y (hs.subset hy)
  cases p with
  | graphemes =>
    obtain ⟨gs, g, hg, e1, e2⟩ := greedy_prefix (J := onChunks Prod.fst Graphemes.J) (J' := onChunks Prod.fst Graphemes.J)
      l2 l1 hl (by
        intro left right hl hr _
        obtain ⟨x, l, rfl⟩ := List.exists_cons_of_ne_nil hl
        obtain ⟨y, r, rfl⟩ := List.exists_cons_of_ne_nil hr
        rfl)
    exact ⟨gs, [g], by simp, by simp [unsettled], by simpa using hg, e1, by rw [List.flatten_singleton]; exact e2⟩
  | words => exact two fun left right hs => Settles.of_map Prod.fst (Words.settles (hvs right hs))
  | phrases => exact two fun left right hs => Settles.of_map Prod.fst (Phrases.settles (hvs right hs))
  | sentences => exact two fun left right _ => Settles.of_map Prod.fst (Sentences.settles c c')

/-- What is known of some division of the tokens holds for every one that leaves as many to the end. -/
theorem GoodAdv.settled {adv : Bytes → Nat} (hg : GoodAdv adv) {a b : Bytes} {n : Nat}
    (h : ∃ ts tl, segs adv a = ts ++ tl ∧ tl.length ≤ n ∧ segs adv (a ++ b) = ts ++ segs adv (tl.flatten ++ b))
    {ts tl : List Bytes} (hs : segs adv a = ts ++ tl) (hn : n ≤ tl.length) :
    segs adv (a ++ b) = ts ++ segs adv (tl.flatten ++ b) := by
  obtain ⟨ts0, tl0, e1, e2, e3⟩ := h
  obtain ⟨x, rfl, rfl⟩ : ∃ x, ts0 = ts ++ x ∧ tl = x ++ tl0 := by
    rw [e1] at hs
    rcases List.append_eq_append_iff.mp hs with ⟨y, k1, k2⟩ | ⟨y, k1, k2⟩
    · have : y = [] := by
        have := congrArg List.length k2
        rw [List.length_append] at this
        exact List.eq_nil_of_length_eq_zero (by omega)
      subst this
      exact ⟨[], by simpa using k1.symm, by simpa using k2.symm⟩
    · exact ⟨y, k1, k2⟩
  have hd := hg.segs_resume (a ++ b) ts (x ++ segs adv (tl0.flatten ++ b)) (by rw [e3, List.append_assoc])
  have hf := hg.segs_flatten a
  rw [e1] at hf
  rw [← hf] at hd
  simp only [List.flatten_append, List.append_assoc, List.drop_left'] at hd
  rw [List.flatten_append, List.append_assoc, hd, e3, List.append_assoc]

/-- **C71** When text is appended, all tokens but the last two stay, and the others are those of the
last two tokens with the new text. The bytes may be any, and may begin or end within an encoding. -/
theorem C71_append (p : Pkg) (a b : Bytes) (ts tl : List Bytes) (h : defaultTokens p a = .ok (ts ++ tl))
    (hn : unsettled p ≤ tl.length) :
    ∃ us, defaultTokens p (tl.flatten ++ b) = .ok us ∧ defaultTokens p (a ++ b) = .ok (ts ++ us) := by
  have hg := splitAdv_good p
  rw [default_segs] at h
  exact ⟨_, default_segs p _, by rw [default_segs, hg.settled (settle_segs p a b) (Except.ok.inj h) hn]⟩

/-- C71 for graphemes: all but the last stay. -/
theorem C71_graphemes (a b : Bytes) (ts : List Bytes) (t : Bytes) (h : defaultTokens .graphemes a = .ok (ts ++ [t])) :
    ∃ us, defaultTokens .graphemes (t ++ b) = .ok us ∧ defaultTokens .graphemes (a ++ b) = .ok (ts ++ us) := by
  have := C71_append .graphemes a b ts [t] h (by simp [unsettled])
  simpa using this

-- the last two words of "x a." become one when "b" follows, and so do the last two sentences of
-- "X. A. 1"; of the graphemes only the last changes
example : defaultTokens .words (utf8 ['x', ' ', 'a', '.']) = .ok [utf8 ['x'], utf8 [' '], utf8 ['a'], utf8 ['.']]
    ∧ defaultTokens .words (utf8 ['x', ' ', 'a', '.', 'b']) = .ok [utf8 ['x'], utf8 [' '], utf8 ['a', '.', 'b']] := by
  decide +kernel
example : defaultTokens .phrases (utf8 ['-', 'a', '.']) = .ok [utf8 ['-'], utf8 ['a'], utf8 ['.']]
    ∧ defaultTokens .phrases (utf8 ['-', 'a', '.', 'b']) = .ok [utf8 ['-'], utf8 ['a', '.', 'b']] := by
  decide +kernel
example : defaultTokens .sentences (utf8 ['X', '.', ' ', 'A', '.', ' ', '1'])
      = .ok [utf8 ['X', '.', ' '], utf8 ['A', '.', ' '], utf8 ['1']]
    ∧ defaultTokens .sentences (utf8 ['X', '.', ' ', 'A', '.', ' ', '1', 'b'])
      = .ok [utf8 ['X', '.', ' '], utf8 ['A', '.', ' ', '1', 'b']] := by
  decide +kernel
-- an encoding in two parts: the first part is of the last token, and the accent is of the "e" before it
example : defaultTokens .graphemes ([0x78, 0x65] ++ [0xCC]) = .ok [[0x78], [0x65, 0xCC]]
    ∧ defaultTokens .graphemes ([0x78, 0x65] ++ [0xCC] ++ [0x81]) = .ok [[0x78], [0x65, 0xCC, 0x81]] := by
  decide +kernel

/-- One token is not enough, for any package but graphemes. -/
theorem C71_two (p : Pkg) (hp : p ≠ .graphemes) :
    ∃ a b ts t, defaultTokens p a = .ok (ts ++ [t])
      ∧ ¬ ∃ us, defaultTokens p (t ++ b) = .ok us ∧ defaultTokens p (a ++ b) = .ok (ts ++ us) := by
  have key : ∀ (a b t : Bytes) (ts ws : List Bytes), defaultTokens p a = .ok (ts ++ [t]) →
      defaultTokens p (a ++ b) = .ok ws → ¬ ts <+: ws →
      ∃ a b ts t, defaultTokens p a = .ok (ts ++ [t])
        ∧ ¬ ∃ us, defaultTokens p (t ++ b) = .ok us ∧ defaultTokens p (a ++ b) = .ok (ts ++ us) := by
    intro a b t ts ws h1 h2 h3
    refine ⟨a, b, ts, t, h1, ?_⟩
    rintro ⟨us, -, h4⟩
    rw [h2] at h4
    exact h3 ⟨us, (Except.ok.inj h4).symm⟩
  cases p with
  | graphemes => exact absurd rfl hp
  | words => exact key [0x61, 0x2E] [0x62] [0x2E] [[0x61]] [[0x61, 0x2E, 0x62]] (by decide +kernel) (by decide +kernel) (by decide)
  | phrases => exact key [0x61, 0x2E] [0x62] [0x2E] [[0x61]] [[0x61, 0x2E, 0x62]] (by decide +kernel) (by decide +kernel) (by decide)
  | sentences =>
    exact key [0x41, 0x2E, 0x20, 0x31] [0x62] [0x31] [[0x41, 0x2E, 0x20]] [[0x41, 0x2E, 0x20, 0x31, 0x62]]
      (by decide +kernel) (by decide +kernel) (by decide)

/-- C71 for the words of the split function with joiners, whatever they are. -/
theorem C71_joiners_split (j : Option Words.Joiners) (a b : Bytes) (ts tl : List Bytes)
    (h : Splits (Words.joinersSplitFunc j) a (ts ++ tl)) (hn : 2 ≤ tl.length) :
    ∃ us, Splits (Words.joinersSplitFunc j) (tl.flatten ++ b) us ∧ Splits (Words.joinersSplitFunc j) (a ++ b) (ts ++ us) := by
  have hf := Words.splitFunc_good j
  have hg := goodAdv_of_good hf
  refine ⟨_, (splits_iff hf).2 rfl, (splits_iff hf).2 ?_⟩
  refine (hg.settled (hg.settle b ?_ a) ((splits_iff hf).1 h).symm hn).symm
  intro a ha hlt hne
  obtain ⟨_, _, _, _, _, h⟩ := Words.joiners_settle j a b ha hlt hne
  exact h

/-- Ignored characters and cut off encodings are not ASCII. -/
theorem Words.ignored_head {d t : Bytes} {l : List (Nat × Bytes)} (h : Decodes Words.trie d l t)
    (hl : ∀ y ∈ l, is y.1 Words._Ignore = true) : ∀ b, d.head? = some b → 0x80 ≤ b.toNat := by
  intro b hb
  rcases Nat.lt_or_ge b.toNat 0x80 with hlt | hge
  · exfalso
    obtain ⟨r, rfl⟩ : ∃ r, d = b :: r := by
      cases d with
      | nil => cases hb
      | cons x r => cases hb; exact ⟨r, rfl⟩
    have hlook := (Words.wf.lookup_ascii hlt r).1
    generalize he : b :: r = e at h
    cases h with
    | nil => cases he
    | tail _ look => rw [← he, hlook] at look; cases look
    | @cons bs d t v l ne look val rest =>
      rw [← he, hlook] at look
      have hv := (Prod.mk.inj (Except.ok.inj look)).1
      have h1 := hl (v, bs) List.mem_cons_self
      rw [← hv] at h1
      have := forall_uint8 (P := fun b => decide (0x80 ≤ b.toNat) || !is (Words.trie.ascii b) Words._Ignore) (by decide +kernel) b
      simp only [h1, Bool.not_true, Bool.or_false, decide_eq_true_eq] at this
      omega
  · exact hge

theorem countWhile_run {p : UInt8 → Bool} : ∀ {run : Bytes} {c : UInt8} (rest : Bytes), (∀ b ∈ run, p b = true) → p c = false →
    countWhile p (run ++ c :: rest) = run.length
  | [], c, rest, _, hc => by simp [countWhile, hc]
  | b :: run, c, rest, h, hc => by
    rw [List.cons_append, countWhile, if_pos (h b List.mem_cons_self),
      countWhile_run rest (fun x hx => h x (List.mem_cons_of_mem _ hx)) hc, List.length_cons]

/-- The iterator takes letters and digits before a space, and otherwise asks the split function. -/
theorem Words.adv_run (split : SplitFn) {b : UInt8} {run : Bytes} {c : UInt8} (rest : Bytes)
    (h : ∀ x ∈ b :: run, Words.isASCIIAlphanumeric x = true) (hc : Words.isASCIIAlphanumeric c = false) :
    Words.adv split (b :: run ++ c :: rest)
      = if c = 0x20 then (b :: run).length else splitAdv split (b :: run ++ c :: rest) := by
  rw [List.cons_append, Words.adv, if_pos (h b List.mem_cons_self),
    countWhile_run rest (fun x hx => h x (List.mem_cons_of_mem _ hx)) hc]
  have e1 : (b :: (run ++ c :: rest))[1 + run.length]? = some c := by
    rw [Nat.add_comm, List.getElem?_cons_succ, List.getElem?_append_right (Nat.le_refl _), Nat.sub_self]
    rfl
  have e2 : ¬ 1 + run.length ≥ (b :: (run ++ c :: rest)).length := by simp; omega
  simp only [e1, e2, decide_false, Bool.false_or]
  by_cases h20 : c = 0x20
  · subst h20; simp; omega
  · simp [h20]

theorem Words.adv_other (split : SplitFn) {b : UInt8} (rest : Bytes) (h : Words.isASCIIAlphanumeric b = false) :
    Words.adv split (b :: rest) = splitAdv split (b :: rest) := by
  simp [Words.adv, h]

/-- **C71** for the words of the iterator with joiners, whatever they are. -/
theorem C71_joiners (j : Option Words.Joiners) (a b : Bytes) (ts tl : List Bytes)
    (h : tokens .words j a = .ok (ts ++ tl)) (hn : 2 ≤ tl.length) :
    ∃ us, tokens .words j (tl.flatten ++ b) = .ok us ∧ tokens .words j (a ++ b) = .ok (ts ++ us) := by
  have hg := Iterator.goodAdv .words j
  have h := (tokens_eq .words j a).symm.trans h
  refine ⟨_, tokens_eq .words j _, (tokens_eq .words j _).trans ?_⟩
  refine congrArg _ (hg.settled (hg.settle b ?_ a) (Except.ok.inj h) hn)
  clear h hn
  intro a ha hlt hne
  change Words.adv (Words.joinersSplitFunc j) a < a.length at hlt
  change Words.adv (Words.joinersSplitFunc j) (a ++ b) ≠ Words.adv (Words.joinersSplitFunc j) a at hne
  change Words.adv (Words.joinersSplitFunc j) (a.drop (Words.adv (Words.joinersSplitFunc j) a))
    = (a.drop (Words.adv (Words.joinersSplitFunc j) a)).length
  generalize hf : Words.joinersSplitFunc j = f at *
  -- the fast path does not decide, so the split function does
  have key : Words.adv f a = splitAdv f a ∧ Words.adv f (a ++ b) = splitAdv f (a ++ b) := by
    obtain ⟨run, rest, rfl, -, h3, h4⟩ := countWhile_split Words.isASCIIAlphanumeric a
    cases run with
    | nil =>
      obtain ⟨c, rest, rfl⟩ := List.exists_cons_of_ne_nil (l := rest) (by simpa using ha)
      exact ⟨Words.adv_other f _ (h4 c rfl), Words.adv_other f _ (h4 c rfl)⟩
    | cons x run =>
      cases rest with
      | nil =>
        exfalso
        rw [List.append_nil] at hlt
        have hcw : ∀ r : Bytes, (∀ b ∈ r, Words.isASCIIAlphanumeric b = true) → countWhile Words.isASCIIAlphanumeric r = r.length := by
          intro r
          induction r with
          | nil => intro _; rfl
          | cons y r ih =>
            intro h
            rw [countWhile, if_pos (h y List.mem_cons_self), ih fun z hz => h z (List.mem_cons_of_mem _ hz), List.length_cons]
        rw [Words.adv, if_pos (h3 x List.mem_cons_self), hcw run fun z hz => h3 z (List.mem_cons_of_mem _ hz)] at hlt
        rw [if_pos (by simp; omega), List.length_cons] at hlt
        omega
      | cons c rest =>
        have hc := h4 c rfl
        have e1 := Words.adv_run f rest h3 hc
        have e2 := Words.adv_run f (rest ++ b) h3 hc
        rw [← List.cons_append (as := rest), ← List.append_assoc] at e2
        by_cases h20 : c = 0x20
        · rw [if_pos h20] at e1 e2
          rw [e1, e2] at hne
          exact absurd rfl hne
        · rw [if_neg h20] at e1 e2
          exact ⟨e1, e2⟩
  rw [key.1, key.2] at hne
  rw [key.1] at hlt ⊢
  subst hf
  obtain ⟨x, l, t, hdec, hign, hall⟩ := Words.joiners_settle j a b ha hlt hne
  generalize a.drop (splitAdv (Words.joinersSplitFunc j) a) = r at hdec hall ⊢
  cases r with
  | nil => simp [Words.adv]
  | cons c r =>
    cases hc : Words.isASCIIAlphanumeric c with
    | false => rw [Words.adv_other _ _ hc]; exact hall
    | true =>
      -- after the letter or digit there are only ignored characters
      have hlt : c.toNat < 0x80 := by
        have := forall_uint8 (P := fun b => !Words.isASCIIAlphanumeric b || decide (b.toNat < 0x80)) (by decide +kernel) c
        rw [hc] at this
        simpa using this
      have hr : ∀ y, r.head? = some y → 0x80 ≤ y.toNat := by
        have hlook := (Words.wf.lookup_ascii hlt r).1
        generalize he : c :: r = e at hdec
        cases hdec with
        | @cons bs d t v l ne look val rest =>
          rw [← he, hlook] at look
          have hlen := (Prod.mk.inj (Except.ok.inj look)).2
          match bs, hlen with
          | [y], _ =>
            simp only [List.cons_append, List.nil_append, List.cons.injEq] at he
            obtain ⟨rfl, rfl⟩ := he
            exact Words.ignored_head rest hign
      cases r with
      | nil => simp [Words.adv, hc, countWhile]
      | cons y r =>
        have hy := hr y rfl
        have hyn : Words.isASCIIAlphanumeric y = false ∧ y ≠ 0x20 := by
          have := forall_uint8 (P := fun b => !decide (0x80 ≤ b.toNat) || (!Words.isASCIIAlphanumeric b && b != 0x20)) (by decide +kernel) y
          simp only [hy, decide_true, Bool.not_true, Bool.false_or, Bool.and_eq_true, Bool.not_eq_true', bne_iff_ne] at this
          exact this
        have := Words.adv_run (Words.joinersSplitFunc j) (b := c) (run := []) r (by simpa using hc) hyn.1
        rw [if_neg hyn.2] at this
        exact this.trans hall

theorem asciiGraphemes_single : ∀ {l : Bytes}, (0x0D : UInt8) ∉ l → asciiGraphemes l = l.map fun b => [b]
  | [], _ => rfl
  | [a], _ => rfl
  | a :: b :: l, h => by
    have ha : a ≠ 0x0D := by rintro rfl; exact h List.mem_cons_self
    rw [asciiGraphemes, if_neg (fun h => ha h.1), asciiGraphemes_single fun h' => h (List.mem_cons_of_mem _ h')]
    rfl

/-- A control sequence without its final byte is none. -/
theorem no_escape (n : Nat) : ¬ beginsEscape true false (0x1B :: 0x5B :: List.replicate n 0x30) := by
  rintro ⟨e, v, he, ⟨-, h⟩ | ⟨h, -⟩⟩
  · cases h with
    | @csi body _ h =>
      obtain ⟨params, inters, final, rfl, -, -, hf⟩ := h
      simp only [List.cons_append, List.cons.injEq, true_and] at he
      have : final ∈ List.replicate n (0x30 : UInt8) := by rw [he]; simp
      have := List.eq_of_mem_replicate this
      subst this
      have := hf.1
      revert this
      decide
    | osc h => simp at he
    | @str c body _ hc h =>
      simp only [List.cons_append, List.cons.injEq, true_and] at he
      rw [← he.1] at hc
      revert hc
      decide
    | @two c _ hc hn =>
      simp only [List.cons_append, List.nil_append, List.cons.injEq, true_and] at he
      rw [← he.1] at hn
      exact hn (by decide)
    | @nF inters final _ hne hi hf =>
      obtain ⟨c, inters, rfl⟩ := List.exists_cons_of_ne_nil hne
      simp only [List.cons_append, List.cons.injEq, true_and] at he
      have := (hi c List.mem_cons_self).2
      rw [← he.1] at this
      revert this
      decide
  · cases h

/-- C71 does not hold with escape sequences: however many tokens one leaves to the end, they can
become one. -/
theorem C71_ansi (n : Nat) : ∃ a b tl, n ≤ tl.length ∧ tokens .graphemes ⟨true, false⟩ a = .ok tl
    ∧ tokens .graphemes ⟨true, false⟩ (a ++ b) = .ok [a ++ b] := by
  refine ⟨0x1B :: 0x5B :: List.replicate n 0x30, [0x6D], (0x1B :: 0x5B :: List.replicate n 0x30).map fun b => [b], ?_, ?_, ?_⟩
  · simp; omega
  · have hd : defaultTokens .graphemes (0x1B :: 0x5B :: List.replicate n 0x30)
        = .ok ((0x1B :: 0x5B :: List.replicate n 0x30).map (fun b => [b]) ++ []) := by
      rw [C40_ascii, asciiGraphemes_single, List.append_nil]
      · simp
      · intro b hb
        simp only [List.mem_cons, List.mem_replicate] at hb
        rcases hb with rfl | rfl | ⟨-, rfl⟩ <;> decide
    obtain ⟨C, h1, h2⟩ := C26_prefix ⟨true, false⟩ _ _ [] hd (by
      intro A1 A2 hA hne
      rw [List.flatten_nil, List.append_nil]
      cases A1 with
      | nil =>
        rw [List.nil_append] at hA
        rw [← hA, ← List.flatMap_def, List.flatMap_singleton']
        exact no_escape n
      | cons x A1 =>
        simp only [List.map_cons, List.cons_append, List.cons.injEq] at hA
        have hm : (0x1B : UInt8) ∉ A2.flatten := by
          intro hmem
          obtain ⟨l, hl, hmem⟩ := List.mem_flatten.mp hmem
          have : l ∈ [0x5B] :: (List.replicate n (0x30 : UInt8)).map fun b => [b] := by
            rw [hA.2]; exact List.mem_append_right _ hl
          simp only [List.mem_cons, List.mem_map, List.mem_replicate] at this
          rcases this with rfl | ⟨b, ⟨-, rfl⟩, rfl⟩ <;> revert hmem <;> decide
        rintro ⟨e, v, he, ⟨-, h⟩ | ⟨h, -⟩⟩
        · apply hm
          rw [he]
          cases h <;> simp
        · cases h)
    have h0 : tokens .graphemes ⟨true, false⟩ [] = .ok [] := by decide +kernel
    rw [List.flatten_nil, h0] at h1
    cases h1
    rw [List.append_nil] at h2
    exact h2
  · have := C27_between ⟨true, false⟩ rfl [] (by simp) (0x1B :: 0x5B :: (List.replicate n 0x30 ++ [0x6D])) []
      (.csi ⟨List.replicate n 0x30, [], 0x6D, by simp, by
        intro b hb
        rw [List.eq_of_mem_replicate hb]
        simp [byteIn], by simp, by simp [byteIn]⟩)
    obtain ⟨us, vs, h1, h2, h3, h4⟩ := this
    have h0 : tokens .graphemes ⟨true, false⟩ [] = .ok [] := by decide +kernel
    rw [h0] at h3
    rw [utf8_nil, h0] at h2
    cases h2; cases h3
    simpa [utf8_nil] using h4

-- with the hyphen as a middle and "#" as a leading joiner
example : tokens .words (some ⟨some ['-'.toNat], some ['#'.toNat]⟩) (utf8 ['#', 'x', ' ', 'a', '-'])
      = .ok [utf8 ['#', 'x'], utf8 [' '], utf8 ['a'], utf8 ['-']]
    ∧ tokens .words (some ⟨some ['-'.toNat], some ['#'.toNat]⟩) (utf8 ['#', 'x', ' ', 'a', '-', 'b'])
      = .ok [utf8 ['#', 'x'], utf8 [' '], utf8 ['a', '-', 'b']] := by
  decide +kernel
-- ESC [ 0 0 m
example : tokens .graphemes ⟨true, false⟩ [0x1B, 0x5B, 0x30, 0x30] = .ok [[0x1B], [0x5B], [0x30], [0x30]]
    ∧ tokens .graphemes ⟨true, false⟩ [0x1B, 0x5B, 0x30, 0x30, 0x6D] = .ok [[0x1B, 0x5B, 0x30, 0x30, 0x6D]] := by
  decide +kernel

end Uax29
