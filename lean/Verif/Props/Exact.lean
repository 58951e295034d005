import Verif.Props.Packages
import Verif.Props.Words
import Verif.Props.Joiners
import Verif.Props.CustomSplit
import Verif.Props.Pieces
/-!
# The conditions of C18, C29, C31 and C32 are exact

The partial theorems have a condition, and a single counterexample shows that some condition is needed. Here the condition
is shown to be the weakest one: wherever it does not hold, the property fails.
-/
namespace Uax29
open Spec

/-! ## C18 -/

theorem glue_last (t : Bytes) : ∀ gs : List (List (Nat × Bytes)), gs ≠ [] →
    ∃ ts last, glue [] gs = ts ++ [last] ∧ glue t gs = ts ++ [last ++ t]
  | [], h => absurd rfl h
  | [g], _ => ⟨[], g.flatMap (·.2), by simp [glue], by simp [glue]⟩
  | g :: g' :: gs, _ => by
    obtain ⟨ts, last, h1, h2⟩ := glue_last t (g' :: gs) (by simp)
    refine ⟨g.flatMap (·.2) :: ts, last, ?_, ?_⟩
    · rw [glue, h1]; rfl; simp
    · rw [glue, h2]; rfl; simp

/-- C18 where it does not hold: if `b` is too short for the encoding it starts, it becomes a part of the last token of `a`
with the line feed. -/
theorem C18_tail (p : Pkg) (a : List Char) (b : Bytes) (hb : TooShort b) :
    ∃ ts last, defaultTokens p (utf8 a ++ [0x0A]) = .ok (ts ++ [last])
      ∧ defaultTokens p (utf8 a ++ [0x0A] ++ b) = .ok (ts ++ [last ++ b]) := by
  have hne : b ≠ [] := by
    obtain ⟨x, rest, rfl, _⟩ := hb
    simp
  have hdec : Decodes (trieOf p) b [] b := by
    obtain ⟨x, rest, rfl, hs⟩ := hb
    obtain ⟨v, w, h1, _, _, h4⟩ := C37_total p x rest
    rw [h4.mpr hs] at h1
    exact .tail (by simp) h1
  have e : utf8 a ++ [0x0A] = utf8 (a ++ ['\n']) := by
    rw [utf8_append]; rfl
  have h1 := (trieOf_wf p).decodes_utf8 (a ++ ['\n'])
  have h12 := (trieOf_wf p).decodes_utf8_append (a ++ ['\n']) hdec
  rw [default_segs, default_segs, e, (follows p).segs_eq (splitAdv_good p) h12, (follows p).segs_eq (splitAdv_good p) h1]
  have hn := lineEnd p
  generalize hl : (a ++ ['\n']).map (fun c => ((trieOf p).prop c, String.utf8EncodeChar c)) = l1 at *
  have hmap : l1.map Prod.fst = a.map (trieOf p).prop ++ [(trieOf p).prop '\n'] := by
    rw [← hl]; simp
  have hcut := greedy_cut (J := onChunks Prod.fst (ruleOf p (!b.isEmpty))) (J' := onChunks Prod.fst (ruleOf p (!([] : Bytes).isEmpty))) [] l1
    (by
      intro left right hl' hr hs
      obtain ⟨u, hu⟩ := hs
      obtain ⟨r, x, rfl⟩ : ∃ r x, right = r ++ [x] := ⟨right.dropLast, right.getLast hr, (List.dropLast_concat_getLast hr).symm⟩
      rw [← hu, List.map_append, List.map_append, ← List.append_assoc] at hmap
      have := (List.append_inj' hmap rfl).2
      have hx : x.1 = (trieOf p).prop '\n' := by simpa using this
      simp only [onChunks, List.append_nil, List.map_append, List.map_cons, List.map_nil, hx]
      have := hn.inside (!b.isEmpty) (left.map Prod.fst) (r.map Prod.fst) []
      rw [List.append_nil] at this
      exact this)
    (fun h => absurd rfl h)
  rw [greedy_nil, List.append_nil (greedy _ _)] at hcut
  rw [hcut]
  have hne' : greedy (onChunks Prod.fst (ruleOf p (!([] : Bytes).isEmpty))) l1 ≠ [] := by
    intro h
    rw [greedy_eq_nil] at h
    rw [h] at hmap
    simp at hmap
  obtain ⟨ts, last, k1, k2⟩ := glue_last b _ hne'
  exact ⟨ts, last, by rw [k1], by rw [k2]⟩

/-- C18, exactly: the tokens of `a`, a line feed and `b` are those of the two parts if and only if `b` is not too short for the
encoding it starts. -/
theorem C18_iff (p : Pkg) (a : List Char) (b : Bytes) :
    (∃ ts us, defaultTokens p (utf8 a ++ [0x0A]) = .ok ts ∧ defaultTokens p b = .ok us
      ∧ defaultTokens p (utf8 a ++ [0x0A] ++ b) = .ok (ts ++ us)) ↔ ¬ TooShort b := by
  refine ⟨?_, C18_lines_partial p a b⟩
  rintro ⟨ts, us, h1, h2, h3⟩ hb
  obtain ⟨ts', last, k1, k2⟩ := C18_tail p a b hb
  rw [h1] at k1
  rw [h3] at k2
  have e1 := Except.ok.inj k1
  have e2 := Except.ok.inj k2
  obtain ⟨us', hu, hf, hne⟩ := C01_lossless_default p b
  rw [h2] at hu
  obtain rfl := Except.ok.inj hu
  have hbne : b ≠ [] := by
    obtain ⟨x, rest, rfl, _⟩ := hb
    simp
  have hus : us ≠ [] := by
    rintro rfl
    exact hbne hf.symm
  have hlen := congrArg List.length e2
  rw [e1] at hlen
  have := List.length_pos_iff.mpr hus
  simp only [List.length_append, List.length_singleton] at hlen
  omega

example : defaultTokens .sentences (utf8 ['a', '\n'] ++ [0xE2, 0x80]) = .ok [utf8 ['a', '\n'] ++ [0xE2, 0x80]] := by
  decide +kernel

/-! ## C32 -/

/-- C32, exactly: the tokens are those of the split function, for all texts, if and only if it takes runs of ASCII letters
and digits before a space or the end of the text as one token. -/
theorem C32_iff (f : SplitFn) (hf : WellBehaved f) :
    (∀ data, ∃ ts, tokensWith Words.next (wordsSplit f data) = .ok ts ∧ Splits f data ts)
      ↔ ∀ tok rest, FastWord tok rest → f (tok ++ rest) true = .ok ⟨tok.length, some tok, none⟩ := by
  constructor
  · intro h tok rest hw
    obtain ⟨ts, h1, h2⟩ := h (tok ++ rest)
    have hspec := Words.next_spec (WellBehaved.goodFn hf)
    rw [hspec.tokensWith_eq (it := wordsSplit f (tok ++ rest)) rfl] at h1
    have hne : tok ++ rest ≠ [] := by
      have := hw.1
      simp [this]
    have e := Except.ok.inj h1
    have e' : segs (Words.adv f) (tok ++ rest) = ts := e
    rw [hspec.goodAdv.segs_cons hne, fast_adv f hw, List.take_left, List.drop_left] at e'
    generalize hd : tok ++ rest = d at h2 hne
    cases h2 with
    | nil => exact absurd rfl hne
    | cons ne first others =>
      obtain ⟨rfl, _⟩ := List.cons.inj e'
      exact first
  · intro h data
    obtain ⟨ts, h1, h2, _⟩ := C32_partial f hf h data
    exact ⟨ts, h1, h2⟩

-- a function that takes one byte at a time does not satisfy the condition: "ab" is a run
example : FastWord [0x61, 0x62] [] ∧ byteSplit [0x61, 0x62] true ≠ .ok ⟨2, some [0x61, 0x62], none⟩ := by
  refine ⟨⟨by simp, by simp [asciiAlnum], .inl rfl⟩, by decide +kernel⟩

/-! ## C31 -/

/-- The characters of a text that are joiners. -/
def joinersOf (runes : Option (List Int)) (s : List Char) : Option (List Int) :=
  some ((s.filter fun c => decide ((c.val.toNat : Int) ∈ runes.getD [])).map fun c => (c.val.toNat : Int))

theorem joinersOf_agree (runes : Option (List Int)) (s : List Char) : ∀ c ∈ s, Agree runes (joinersOf runes s) c := by
  intro c hc
  unfold Agree joinersOf
  rw [Option.any_some, Bool.eq_iff_iff]
  have key : (runes.any fun rs => decide ((c.val.toNat : Int) ∈ rs)) = decide ((c.val.toNat : Int) ∈ runes.getD []) := by
    cases runes <;> simp
  rw [key]
  simp only [decide_eq_true_eq, List.mem_map, List.mem_filter]
  constructor
  · intro h
    exact ⟨c, ⟨hc, h⟩, rfl⟩
  · rintro ⟨d, ⟨_, h⟩, e⟩
    rw [← e]; exact h

/-- Do scanner and iterator give different numbers of tokens for "a b"? -/
def differ (M L : List Int) : Bool :=
  match tokens .words (some ⟨some M, some L⟩) (utf8 ['a', ' ', 'b']),
    Scanner.tokens (scanner .words (some ⟨some M, some L⟩) [(utf8 ['a', ' ', 'b'], none)] 0 100) with
  | .ok ts, .ok us => ts.length != us.1.length
  | _, _ => false

theorem differ_eq {j : Option Words.Joiners} {M L : List Int} (hj : j = some ⟨some M, some L⟩) {ts : List Bytes} {e : Option Scanner.Err}
    (h1 : tokens .words j (utf8 ['a', ' ', 'b']) = .ok ts)
    (h2 : Scanner.tokens (scanner .words j [(utf8 ['a', ' ', 'b'], none)] 0 100) = .ok (ts, e)) : differ M L = false := by
  subst hj
  unfold differ
  rw [h1, h2]
  simp

/-- They do if the space is a middle joiner, whatever other joiners there are. -/
theorem space_differs : ∀ m1 m2 l1 l2 l3 : Bool,
    differ ((if m1 then [0x61] else []) ++ [0x20] ++ (if m2 then [0x62] else []))
      ((if l1 then [0x61] else []) ++ (if l2 then [0x20] else []) ++ (if l3 then [0x62] else [])) = true := by
  decide +kernel

/-- C31, exactly: iterator and scanner yield the same tokens, for all readers, if and only if the space is not a middle joiner. -/
theorem C31_iff (j : Option Words.Joiners) :
    (∀ (r : Scanner.Reader) (n max : Nat), (deliver 0 r).1.length < max →
      ∃ ts, tokens .words j (deliver 0 r).1 = .ok ts
        ∧ Scanner.tokens (scanner .words j r n max) = .ok (ts, shownErr (deliver 0 r).2))
      ↔ ∀ M, j.bind (·.middle) = some M → (0x20 : Int) ∉ M := by
  refine ⟨?_, fun h r n max hmax => C31_agree_partial j h r n max hmax⟩
  intro h M hM hsp
  have hd : (deliver 0 [(utf8 ['a', ' ', 'b'], none)]).1 = utf8 ['a', ' ', 'b'] := by decide +kernel
  obtain ⟨ts, h1, h2⟩ := h [(utf8 ['a', ' ', 'b'], none)] 0 100 (by decide +kernel)
  rw [hd] at h1
  let j' : Option Words.Joiners := some ⟨joinersOf (j.bind (·.middle)) ['a', ' ', 'b'], joinersOf (j.bind (·.leading)) ['a', ' ', 'b']⟩
  obtain ⟨k1, k2⟩ := C30_unused j j' ['a', ' ', 'b'] fun c hc => ⟨joinersOf_agree _ _ c hc, joinersOf_agree _ _ c hc⟩
  rw [k1] at h1
  rw [k2 _ 0 100 hd (by decide +kernel)] at h2
  have hs := space_differs (decide ((0x61 : Int) ∈ M)) (decide ((0x62 : Int) ∈ M)) (decide ((0x61 : Int) ∈ (j.bind (·.leading)).getD []))
    (decide ((0x20 : Int) ∈ (j.bind (·.leading)).getD [])) (decide ((0x62 : Int) ∈ (j.bind (·.leading)).getD []))
  have e1 : joinersOf (j.bind (·.middle)) ['a', ' ', 'b']
      = some ((if decide ((0x61 : Int) ∈ M) then [0x61] else []) ++ [0x20] ++ (if decide ((0x62 : Int) ∈ M) then [0x62] else [])) := by
    rw [hM, joinersOf]
    have a1 : ('a'.val.toNat : Int) = 0x61 := rfl
    have a2 : (' '.val.toNat : Int) = 0x20 := rfl
    have a3 : ('b'.val.toNat : Int) = 0x62 := rfl
    simp only [List.filter_cons, List.filter_nil, a1, a2, a3, Option.getD_some, hsp, decide_true, if_true]
    by_cases m1 : (0x61 : Int) ∈ M <;> by_cases m2 : (0x62 : Int) ∈ M <;> simp [m1, m2]
  have e2 : ∀ L : Option (List Int), joinersOf L ['a', ' ', 'b']
      = some ((if decide ((0x61 : Int) ∈ L.getD []) then [0x61] else []) ++ (if decide ((0x20 : Int) ∈ L.getD []) then [0x20] else [])
        ++ (if decide ((0x62 : Int) ∈ L.getD []) then [0x62] else [])) := by
    intro L
    rw [joinersOf]
    have a1 : ('a'.val.toNat : Int) = 0x61 := rfl
    have a2 : (' '.val.toNat : Int) = 0x20 := rfl
    have a3 : ('b'.val.toNat : Int) = 0x62 := rfl
    simp only [List.filter_cons, List.filter_nil, a1, a2, a3]
    by_cases m1 : (0x61 : Int) ∈ L.getD [] <;> by_cases m2 : (0x62 : Int) ∈ L.getD [] <;> by_cases m3 : (0x20 : Int) ∈ L.getD [] <;>
      simp [m1, m2, m3]
  have := differ_eq (congrArg some (by rw [e1, e2])) h1 h2
  rw [hs] at this
  cases this

-- for "a b" with '-' and the space as middle joiners, the scanner gives one token and the iterator three
example : differ [0x2D, 0x20] [] = true ∧ differ [0x2D] [0x20] = false := by decide +kernel

/-! ## C29 -/

/-- The properties of a character of the table: before an "a", a newline that counts as a letter, too, is a word of its own by
the rules; something ignored that counts as a letter, too, is not, but it is without the additional property. -/
theorem lead_values {v : Nat} (h : Words.okValue v = true) :
    ((wset v).newline = true → wordBreak [wset (v ||| Words._AHLetter)] [wordClasses 'a'] = true)
    ∧ ((wset v).ignorable = true → wordBreak [wset (v ||| Words._AHLetter)] [wordClasses 'a'] = false
      ∧ wordBreak [wset v] [wordClasses 'a'] = true) := by
  have e : wordClasses 'a' = wset (Words.trie.prop 'a') := Words.wordClasses_eq 'a'
  rw [e]
  exact Words.okValue.all (P := fun v => ((wset v).newline = true → wordBreak [wset (v ||| Words._AHLetter)] [wset (Words.trie.prop 'a')] = true)
    ∧ ((wset v).ignorable = true → wordBreak [wset (v ||| Words._AHLetter)] [wset (Words.trie.prop 'a')] = false
      ∧ wordBreak [wset v] [wset (Words.trie.prop 'a')] = true)) (by decide +kernel) h

theorem withLeading_mem {L : List Int} {c : Char} (h : (c.val.toNat : Int) ∈ L) :
    withLeading L c = wset (Words.trie.prop c ||| Words._AHLetter) := by
  funext g
  rw [Words.wset_or, ← Words.wordClasses_eq, withLeading, h |> decide_eq_true, Bool.and_true]
  congr 1
  cases g <;> decide

theorem two_groups {α : Type} {a b : α} : ∀ {gs : List (List α)}, gs.flatten = [a, b] → (∀ g ∈ gs, g ≠ []) →
    gs = [[a, b]] ∨ gs = [[a], [b]]
  | [], h, _ => by simp at h
  | [] :: gs, _, hn => absurd rfl (hn [] List.mem_cons_self)
  | [x] :: gs, h, hn => by
    simp only [List.flatten_cons, List.cons_append, List.nil_append, List.cons.injEq] at h
    obtain ⟨rfl, h⟩ := h
    right
    match gs, h, hn with
    | [] :: _, _, hn => exact absurd rfl (hn [] (by simp))
    | [y] :: [], h, _ => simp at h; rw [h]
    | [y] :: [] :: _, _, hn => exact absurd rfl (hn [] (by simp))
    | [y] :: (z :: g) :: _, h, _ => simp at h
    | (y :: z :: g) :: _, h, _ => simp at h
  | (x :: y :: g) :: gs, h, hn => by
    simp only [List.flatten_cons, List.cons_append, List.cons.injEq, List.append_eq_nil_iff] at h
    obtain ⟨rfl, rfl, rfl, h⟩ := h
    left
    match gs, h, hn with
    | [], _, _ => rfl
    | [] :: _, _, hn => exact absurd rfl (hn [] (by simp))
    | (z :: g) :: _, h, _ => simp at h

/-- C29, exactly: each word is the first one by the rules in which a leading joiner at the start counts as AHLetter, for all
texts, if and only if no leading joiner is a newline or ignored by WB4. -/
theorem C29_iff (L : List Int) :
    (∀ s : List Char, ∃ ws : List (List Char), Splits (Words.joinersSplitFunc (some ⟨none, some L⟩)) (utf8 s) (ws.map utf8)
      ∧ ws.flatten = s
      ∧ ∀ A w B, ws = A ++ w :: B → w ≠ []
        ∧ (∀ a b, w = a ++ b → a ≠ [] → b ≠ [] →
            wordBreak (leadingClasses L a) ((b ++ B.flatten).map wordClasses) = false)
        ∧ (B ≠ [] → wordBreak (leadingClasses L w) (B.flatten.map wordClasses) = true))
      ↔ ∀ c : Char, (c.val.toNat : Int) ∈ L → (wordClasses c).newline = false ∧ (wordClasses c).ignorable = false := by
  refine ⟨?_, C29_leading_partial L⟩
  intro h c hc
  obtain ⟨ws, h1, h2, h3⟩ := h [c, 'a']
  obtain ⟨ps, t, gs, k0, k1, k2, k3, k4⟩ := C50_split (some ⟨none, some L⟩) (utf8 [c, 'a'])
  have hp : Pieces (utf8 [c, 'a']) [.char c, .char 'a'] [] := by
    have := Pieces.char c (Pieces.char 'a' .nil)
    simpa [utf8] using this
  obtain ⟨rfl, rfl⟩ := k0.unique hp
  have hsame := h1.unique k1
  have hws : ∀ w ∈ ws, w ≠ [] := by
    intro w hw
    obtain ⟨A, B, e⟩ := List.append_of_mem hw
    exact (h3 A w B e).1
  have hv : Words.okValue (Words.trie.prop c) = true := Words.okValue_of (Words.wf.prop_value c)
  obtain ⟨v1, v2⟩ := lead_values hv
  rw [← Words.wordClasses_eq] at v1 v2
  rw [← withLeading_mem hc] at v1 v2
  have hal : (wordClasses 'a').alnum false = true := by rw [Words.wordClasses_eq]; decide +kernel
  have ham : middleClasses [] (.char 'a') = wordClasses 'a' := by
    funext g
    simp [middleClasses, Piece.wordClasses, Piece.classes]
  have hlead : joinedClasses [] L [.char c, .char 'a'] = [leadClasses L (.char c) (some (.char 'a')), wordClasses 'a'] := by
    simp [joinedClasses, ham]
  have hr : (Piece.char c).rune ∈ L := hc
  -- one word or two, in both
  have hone : ws = [[c, 'a']] ∧ gs = [[.char c, .char 'a']] ∨ ws = [[c], ['a']] ∧ gs = [[.char c], [.char 'a']] := by
    rcases two_groups h2 hws with rfl | rfl <;> rcases two_groups k2 k3 with rfl | rfl
    · exact .inl ⟨rfl, rfl⟩
    · exact absurd (congrArg List.length hsame) (by simp [tokenBytes])
    · exact absurd (congrArg List.length hsame) (by simp [tokenBytes])
    · exact .inr ⟨rfl, rfl⟩
  rcases hone with ⟨rfl, rfl⟩ | ⟨rfl, rfl⟩
  · -- one word
    have f1 := (h3 [] [c, 'a'] [] rfl).2.1 [c] ['a'] rfl (by simp) (by simp)
    have f2 := (k4 [] _ [] rfl).1 1 (by decide) (by simp)
    simp only [List.append_nil, List.flatten_nil, List.map_cons, List.map_nil, leadingClasses] at f1
    simp only [List.append_nil, List.flatten_nil, Option.bind_some, Option.getD_none, Option.getD_some] at f2
    rw [hlead] at f2
    simp only [List.take_succ_cons, List.take_zero, List.drop_succ_cons, List.drop_zero] at f2
    constructor
    · cases hn : (wordClasses c).newline with
      | false => rfl
      | true => rw [v1 hn] at f1; cases f1
    · cases hi : (wordClasses c).ignorable with
      | false => rfl
      | true =>
        have : leadClasses L (.char c) (some (.char 'a')) = wordClasses c := by
          unfold leadClasses
          rw [if_neg (fun h => h hr), if_pos]
          · rfl
          · exact hi
        rw [this, (v2 hi).2] at f2
        cases f2
  · -- two words
    have f1 := (h3 [] [c] [['a']] rfl).2.2 (by simp)
    have f2 := (k4 [] [.char c] [[.char 'a']] rfl).2 (by simp)
    simp only [List.flatten_cons, List.flatten_nil, List.append_nil, List.map_cons, List.map_nil, leadingClasses] at f1
    simp only [List.flatten_cons, List.flatten_nil, List.append_nil, List.cons_append, List.nil_append, Option.bind_some,
      Option.getD_none, Option.getD_some] at f2
    rw [hlead] at f2
    simp only [List.length_singleton, List.take_succ_cons, List.take_zero, List.drop_succ_cons, List.drop_zero] at f2
    have hi : (wordClasses c).ignorable = false := by
      cases hi : (wordClasses c).ignorable with
      | false => rfl
      | true => rw [(v2 hi).1] at f1; cases f1
    refine ⟨?_, hi⟩
    cases hn : (wordClasses c).newline with
    | false => rfl
    | true =>
      have : leadClasses L (.char c) (some (.char 'a')) = fun g => g == .ALetter || g == .HebrewLetter := by
        unfold leadClasses
        rw [if_neg (fun h => h hr), if_neg, if_pos, if_pos]
        · exact hal
        · exact hn
        · rw [show (Piece.char c).wordClasses = wordClasses c from rfl, hi]; decide
      rw [this, Words.wordClasses_eq] at f2
      exact absurd f2 (by decide +kernel)

-- the condition holds for '#' and fails for the line separator and the soft hyphen
example : (wordClasses '#').newline = false ∧ (wordClasses '#').ignorable = false
    ∧ (wordClasses '\u2028').newline = true ∧ (wordClasses '\u00AD').ignorable = true := by decide +kernel

end Uax29
