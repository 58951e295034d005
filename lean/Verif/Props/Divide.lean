import Verif.Proofs.Divide
import Verif.Proofs.AnsiText
import Verif.Proofs.CostWords
import Verif.Props.Packages
import Verif.Props.Append
import Verif.Props.Utf8
import Verif.Model.Chars
/-! # Boundaries divide a text: C74 -/
namespace Uax29
open Spec

theorem Spec.Complete.suffix {a s : Bytes} (h : s <:+ a) (hw : Complete a) : Complete s :=
  fun b rest hs => hw b rest (hs.trans h)

theorem complete_nil : Complete [] := by
  intro b rest h
  have := List.suffix_nil.mp h
  cases this

/-- Before a complete text there may be bytes whose first announces no more than there are, and whose
others announce nothing. -/
theorem Spec.Complete.append {bs d : Bytes} (hd : Complete d)
    (h : ∀ b rest, b :: rest <:+ bs → announced b ≤ (rest ++ d).length + 1) : Complete (bs ++ d) := by
  intro b rest hs
  obtain ⟨u, hu⟩ := hs
  rcases List.append_eq_append_iff.mp hu with ⟨m, h1, h2⟩ | ⟨m, h1, h2⟩
  · cases m with
    | nil =>
      rw [List.nil_append] at h2
      exact hd b rest (h2 ▸ List.suffix_refl _)
    | cons x m =>
      rw [List.cons_append, List.cons.injEq] at h2
      obtain ⟨rfl, rfl⟩ := h2
      exact h _ _ ⟨u, h1.symm⟩
  · exact hd b rest ⟨m, h2.symm⟩

theorem announced_of_toNat (b : UInt8) : announced b =
    if b.toNat < 0xC2 then 1 else if b.toNat < 0xE0 then 2 else if b.toNat < 0xF0 then 3 else if b.toNat < 0xF8 then 4 else 1 := by
  have := forall_uint8 (P := fun b => decide (announced b =
    if b.toNat < 0xC2 then 1 else if b.toNat < 0xE0 then 2 else if b.toNat < 0xF0 then 3 else if b.toNat < 0xF8 then 4 else 1))
    (by decide +kernel) b
  simpa using this

theorem announced_le_one {b : UInt8} (h : continuation b = true) : announced b ≤ 1 := by
  have := forall_uint8 (P := fun b => !continuation b || decide (announced b ≤ 1)) (by decide +kernel) b
  rw [h] at this
  simpa using this

/-- The suffixes of a list: the list itself and those of its rest. -/
theorem suffix_rest {b x : UInt8} {rest l : Bytes} (h : b :: rest <:+ x :: l) : (b = x ∧ rest = l) ∨ b :: rest <:+ l := by
  rcases List.suffix_cons_iff.mp h with h | h
  · exact .inl (List.cons.inj h)
  · exact .inr h

theorem of_takeWhile {p : UInt8 → Bool} : ∀ {l : Bytes} {x : UInt8}, x ∈ l.takeWhile p → p x = true
  | y :: l, x, h => by
    rw [List.takeWhile_cons] at h
    split at h
    · rename_i hy
      rcases List.mem_cons.mp h with rfl | h
      · exact hy
      · exact of_takeWhile h
    · cases h

theorem complete_of_pieces {a t : Bytes} {ps : List Piece} (h : Pieces a ps t) (ht : t = []) : Complete a := by
  induction h with
  | nil => exact complete_nil
  | cut _ => cases ht
  | @char d t ps c rest ih =>
    apply (ih ht).append
    intro b r hs
    rcases encode_cases c with ⟨g1, b0, ge, g2⟩ | ⟨g1, g1', b0, b1, ge, g2, g3⟩ |
      ⟨g1, g1', b0, b1, b2, ge, g2, g3, g4⟩ | ⟨g1, g1', b0, b1, b2, b3, ge, g2, g3, g4, g5⟩
    all_goals
      rw [ge] at hs
      have hann := announced_of_toNat
      have key : ∀ x : UInt8, 0x80 ≤ x.toNat → x.toNat < 0xC0 → announced x ≤ 1 := by
        intro x h1 h2
        rw [hann, if_pos (by omega)]
        omega
    · rcases suffix_rest hs with ⟨rfl, rfl⟩ | hs
      · rw [hann, if_pos (by omega)]; omega
      · simp at hs
    · rcases suffix_rest hs with ⟨rfl, rfl⟩ | hs
      · rw [hann]; simp; repeat' split
        all_goals omega
      rcases suffix_rest hs with ⟨rfl, rfl⟩ | hs
      · have := key b (by omega) (by omega); omega
      · simp at hs
    · rcases suffix_rest hs with ⟨rfl, rfl⟩ | hs
      · rw [hann]; simp; repeat' split
        all_goals omega
      rcases suffix_rest hs with ⟨rfl, rfl⟩ | hs
      · have := key b (by omega) (by omega); omega
      rcases suffix_rest hs with ⟨rfl, rfl⟩ | hs
      · have := key b (by omega) (by omega); omega
      · simp at hs
    · rcases suffix_rest hs with ⟨rfl, rfl⟩ | hs
      · rw [hann]; simp; repeat' split
        all_goals omega
      rcases suffix_rest hs with ⟨rfl, rfl⟩ | hs
      · have := key b (by omega) (by omega); omega
      rcases suffix_rest hs with ⟨rfl, rfl⟩ | hs
      · have := key b (by omega) (by omega); omega
      rcases suffix_rest hs with ⟨rfl, rfl⟩ | hs
      · have := key b (by omega) (by omega); omega
      · simp at hs
  | @bad b bs d t ps long ill len rest ih =>
    apply (ih ht).append
    intro b' r hs
    rcases suffix_rest hs with ⟨rfl, rfl⟩ | hs
    · simpa using long
    · have : b' ∈ bs := hs.subset List.mem_cons_self
      have hc : ∀ x ∈ bs, continuation x = true := by
        intro x hx
        simp only [pieceLength, List.cons_append, List.length_cons] at len
        have e : ((bs ++ d).take (announced b - 1)).takeWhile continuation = bs := by
          have h1 : ((bs ++ d).take (announced b - 1)).takeWhile continuation <+: bs ++ d :=
            (List.takeWhile_prefix _).trans (List.take_prefix _ _)
          exact (List.prefix_of_prefix_length_le h1 (List.prefix_append bs d) (by omega)).eq_of_length (by omega)
        rw [← e] at hx
        exact of_takeWhile hx
      have := announced_le_one (hc _ this)
      omega

theorem complete_iff (a : Bytes) : Complete a ↔ ∃ ps, Pieces a ps [] := by
  constructor
  · intro h
    obtain ⟨l, t, hd⟩ := Words.wf.decodes a
    obtain ⟨ps, hp, -⟩ := hd.pieces Words.wf Words.strict
    have := hp.complete h
    exact ⟨ps, this ▸ hp⟩
  · rintro ⟨ps, h⟩
    exact complete_of_pieces h rfl

theorem complete_utf8 (s : List Char) : Complete (utf8 s) := by
  rw [complete_iff]
  refine ⟨s.map .char, ?_⟩
  induction s with
  | nil => exact .nil
  | cons c s ih =>
    rw [utf8_cons]
    exact .char c ih

theorem divide_default (p : Pkg) {a b : Bytes} (ha : a ≠ []) (hw : Complete a)
    (h : splitAdv (splitFunc p) (a ++ b) ≤ a.length) : splitAdv (splitFunc p) a = splitAdv (splitFunc p) (a ++ b) := by
  refine divide_adv (trieOf_wf p) (by cases p; exact Graphemes.strict; exact Words.strict; exact Phrases.strict; exact Sentences.strict) (fun c => firstChunks Prod.fst Prod.fst (ruleOf p c))
    (follows p) ?_ ?_ ha hw h
  · intro c l
    cases l with
    | nil => simp [firstChunks]
    | cons x r =>
      have := grow_le (ruleOf p c) [x.1] (r.map Prod.fst)
      simp only [firstChunks, List.length_cons, List.length_map] at this ⊢
      omega
  · intro c l1 l2 hl1 hv h1 h2
    obtain ⟨x, r, rfl⟩ := List.exists_cons_of_ne_nil hl1
    simp only [List.cons_append, firstChunks, List.map_append, List.length_cons] at h1 h2 ⊢
    rw [grow_firm (J := ruleOf p c) (J' := ruleOf p false) (l2 := l2.map Prod.fst) (by simp) ?_
      (by simp only [List.length_map]; omega) (by simp only [List.length_append, List.length_map] at h2 ⊢; omega)]
    intro l' r' h3 h4 h5
    have hv' : ∀ z ∈ r' ++ l2.map Prod.fst, (trieOf p).IsValue z := by
      intro z hz
      have : z ∈ (r ++ l2).map Prod.fst := by
        rw [List.map_append]
        rcases List.mem_append.mp hz with h | h
        · exact List.mem_append_left _ (h5.subset h)
        · exact List.mem_append_right _ h
      obtain ⟨w, hw, rfl⟩ := List.mem_map.mp this
      exact hv w (List.mem_cons_of_mem _ hw)
    cases p with
    | graphemes => exact Graphemes.firm h4
    | words => exact Words.firm hv'
    | phrases => exact Phrases.firm hv'
    | sentences => exact Sentences.firm c

/-- **C74** A boundary of a text divides it: the tokens before it are those of the text before it, and the
tokens after it are those of the text after it. The bytes may be any, as long as the text before the
boundary does not end within an encoding. -/
theorem C74_divide (p : Pkg) (a b : Bytes) (hw : Complete a) (ts tl : List Bytes)
    (h : defaultTokens p (a ++ b) = .ok (ts ++ tl)) (hf : ts.flatten = a) :
    defaultTokens p a = .ok ts ∧ defaultTokens p b = .ok tl := by
  have hg := splitAdv_good p
  rw [default_segs] at h
  have h := Except.ok.inj h
  rw [default_segs, default_segs]
  refine ⟨congrArg _ (hg.divide (W := Complete) (fun _ _ hs hw => hw.suffix hs) b
    (fun a ha hw h => divide_default p ha hw h) ts a tl hw h hf), ?_⟩
  have := hg.segs_resume _ _ _ h
  rw [hf, List.drop_left' rfl] at this
  exact congrArg _ this

/-- A place of a text is a boundary exactly if the tokens are those of the two parts. -/
theorem C74_iff (p : Pkg) (a b : Bytes) (hw : Complete a) :
    (∃ ts tl, defaultTokens p (a ++ b) = .ok (ts ++ tl) ∧ ts.flatten = a)
      ↔ ∃ ts tl, defaultTokens p a = .ok ts ∧ defaultTokens p b = .ok tl ∧ defaultTokens p (a ++ b) = .ok (ts ++ tl) := by
  constructor
  · rintro ⟨ts, tl, h, hf⟩
    obtain ⟨h1, h2⟩ := C74_divide p a b hw ts tl h hf
    exact ⟨ts, tl, h1, h2, h⟩
  · rintro ⟨ts, tl, h1, -, h⟩
    refine ⟨ts, tl, h, ?_⟩
    rw [default_segs] at h1
    rw [← Except.ok.inj h1]
    exact (splitAdv_good p).segs_flatten a

/-- Any tokens in a row are the tokens of the text they make. -/
theorem C74_run (p : Pkg) (a b c : Bytes) (hw : Complete b) (ts ms tl : List Bytes)
    (h : defaultTokens p (a ++ b ++ c) = .ok (ts ++ ms ++ tl)) (h1 : ts.flatten = a) (h2 : ms.flatten = b) :
    defaultTokens p b = .ok ms := by
  rw [default_segs, List.append_assoc ts] at h
  have := (splitAdv_good p).segs_resume _ _ _ (Except.ok.inj h)
  rw [h1, List.append_assoc, List.drop_left' rfl] at this
  exact (C74_divide p b c hw ms tl (by rw [default_segs, this]) h2).1

/-- C74 for UTF-8: here all boundaries divide the text. -/
theorem C74_utf8 (p : Pkg) (s : List Char) (ts tl : List Bytes) (h : defaultTokens p (utf8 s) = .ok (ts ++ tl)) :
    defaultTokens p ts.flatten = .ok ts ∧ defaultTokens p tl.flatten = .ok tl := by
  have hfl : ts.flatten ++ tl.flatten = utf8 s := by
    have := (splitAdv_good p).segs_flatten (utf8 s)
    rw [default_segs] at h
    rw [Except.ok.inj h, List.flatten_append] at this
    exact this
  have hw : Complete ts.flatten := by
    obtain ⟨us, h1, h2⟩ := C07_iterator p (Iterator.defaultConfig p) (utf8 s) ⟨s, rfl⟩
    rw [← defaultTokens_eq, h] at h1
    have h1 := Except.ok.inj h1
    have all : ∀ ts : List Bytes, (∀ t ∈ ts, ValidUtf8 t) → ∃ r, ts.flatten = utf8 r := by
      intro ts
      induction ts with
      | nil => exact fun _ => ⟨[], rfl⟩
      | cons t ts ih =>
        intro h
        obtain ⟨r, hr⟩ := ih fun x hx => h x (List.mem_cons_of_mem _ hx)
        obtain ⟨q, hq⟩ := h t List.mem_cons_self
        exact ⟨q ++ r, by rw [List.flatten_cons, hr, hq, utf8_append]⟩
    obtain ⟨r, hr⟩ := all ts fun t ht => h2 t (by rw [← h1]; simp [ht])
    rw [hr]
    exact complete_utf8 r
  exact C74_divide p ts.flatten tl.flatten hw ts tl (by rw [hfl, h]) rfl

-- "a.b c. Éd": the boundary before the last word, and the one between the sentences
example : defaultTokens .words (utf8 (chars "a.b c. Éd")) = .ok ([utf8 (chars "a.b"), utf8 [' '], utf8 ['c'], utf8 ['.'], utf8 [' ']]
      ++ [utf8 (chars "Éd")])
    ∧ defaultTokens .words (utf8 (chars "a.b c. ")) = .ok [utf8 (chars "a.b"), utf8 [' '], utf8 ['c'], utf8 ['.'], utf8 [' ']] := by
  decide +kernel
example : defaultTokens .sentences (utf8 (chars "a.b c. Éd")) = .ok ([utf8 (chars "a.b c. ")] ++ [utf8 (chars "Éd")])
    ∧ defaultTokens .sentences (utf8 (chars "a.b c. ")) = .ok [utf8 (chars "a.b c. ")] := by
  decide +kernel
-- no boundary: "a." has two words, and in "a.b" it is not divided from "b"
example : defaultTokens .words (utf8 (chars "a.")) = .ok [utf8 ['a'], utf8 ['.']]
    ∧ defaultTokens .words (utf8 (chars "a.b")) = .ok [utf8 (chars "a.b")] := by
  decide +kernel
-- ill-formed bytes before the boundary
example : defaultTokens .graphemes ([0xFF, 0x65, 0xCC, 0x81] ++ [0x80, 0x61]) = .ok ([[0xFF], [0x65, 0xCC, 0x81]] ++ [[0x80], [0x61]])
    ∧ defaultTokens .graphemes [0xFF, 0x65, 0xCC, 0x81] = .ok [[0xFF], [0x65, 0xCC, 0x81]] := by
  decide +kernel

/-- The condition on the end of the text before the boundary cannot be left out. -/
theorem C74_cut (p : Pkg) : ∃ a b ts tl, defaultTokens p (a ++ b) = .ok (ts ++ tl) ∧ ts.flatten = a
    ∧ defaultTokens p a ≠ .ok ts := by
  cases p with
  | graphemes =>
    exact ⟨[0x78, 0xF0], [0x61, 0x62, 0x63], [[0x78], [0xF0]], [[0x61], [0x62], [0x63]], by decide +kernel, rfl, by decide +kernel⟩
  | words => exact ⟨[0x78, 0xF0], [0x61, 0x62, 0x63], [[0x78], [0xF0]], [[0x61, 0x62, 0x63]], by decide +kernel, rfl, by decide +kernel⟩
  | phrases => exact ⟨[0x78, 0xF0], [0x61, 0x62, 0x63], [[0x78], [0xF0]], [[0x61, 0x62, 0x63]], by decide +kernel, rfl, by decide +kernel⟩
  | sentences =>
    exact ⟨[0x0A, 0xF0, 0x0A], [0x61, 0x62], [[0x0A], [0xF0, 0x0A]], [[0x61, 0x62]], by decide +kernel, rfl, by decide +kernel⟩

/-- C74 for the words of the split function with joiners, whatever they are. -/
theorem C74_joiners_split (j : Option Words.Joiners) (a b : Bytes) (hw : Complete a) (ts tl : List Bytes)
    (h : Splits (Words.joinersSplitFunc j) (a ++ b) (ts ++ tl)) (hf : ts.flatten = a) :
    Splits (Words.joinersSplitFunc j) a ts ∧ Splits (Words.joinersSplitFunc j) b tl := by
  have hgood : ∀ d e, GoodSplit d e (Words.joinersSplitFunc j d e) := fun d e => splitOf_good .words j d e
  have hg : GoodAdv (splitAdv (Words.joinersSplitFunc j)) := goodAdv_of_good hgood
  have h := (splits_iff hgood).1 h
  rw [splits_iff hgood, splits_iff hgood]
  refine ⟨(hg.divide (W := Complete) (fun _ _ hs hw => hw.suffix hs) b
    (fun a ha hw h => Words.joiners_divide j ha hw h) ts a tl hw h.symm hf).symm, ?_⟩
  have := hg.segs_resume _ _ _ h.symm
  rw [hf, List.drop_left' rfl] at this
  exact this.symm

theorem Words.countWhile_all {p : UInt8 → Bool} : ∀ {r : Bytes}, (∀ b ∈ r, p b = true) → countWhile p r = r.length
  | [], _ => rfl
  | y :: r, h => by
    rw [countWhile, if_pos (h y List.mem_cons_self), Words.countWhile_all fun z hz => h z (List.mem_cons_of_mem _ hz),
      List.length_cons]

theorem Words.iter_divide (j : Option Words.Joiners) {a b : Bytes} (ha : a ≠ []) (hw : Complete a)
    (h : Words.adv (Words.joinersSplitFunc j) (a ++ b) ≤ a.length) :
    Words.adv (Words.joinersSplitFunc j) a = Words.adv (Words.joinersSplitFunc j) (a ++ b) := by
  by_cases hb : b = []
  · rw [hb, List.append_nil]
  obtain ⟨run, rest, rfl, -, h3, h4⟩ := countWhile_split Words.isASCIIAlphanumeric a
  cases run with
  | nil =>
    obtain ⟨c, rest, rfl⟩ := List.exists_cons_of_ne_nil (l := rest) (by simpa using ha)
    have hc := h4 c rfl
    simp only [List.nil_append, List.cons_append] at *
    rw [Words.adv_other _ _ hc] at h ⊢
    rw [Words.adv_other _ _ hc]
    exact Words.joiners_divide j ha hw h
  | cons x run =>
    cases rest with
    | cons c rest =>
      have hc := h4 c rfl
      have e1 := Words.adv_run (Words.joinersSplitFunc j) rest h3 hc
      have e2 := Words.adv_run (Words.joinersSplitFunc j) (rest ++ b) h3 hc
      rw [← List.cons_append (as := rest), ← List.append_assoc] at e2
      rw [e2] at h
      rw [e1, e2]
      split
      · rfl
      · rename_i h20
        rw [if_neg h20] at h
        exact Words.joiners_divide j ha hw h
    | nil =>
      rw [List.append_nil] at *
      have e1 : Words.adv (Words.joinersSplitFunc j) (x :: run) = (x :: run).length := by
        rw [Words.adv, if_pos (h3 x List.mem_cons_self), Words.countWhile_all fun z hz => h3 z (List.mem_cons_of_mem _ hz)]
        rw [if_pos (by simp; omega), List.length_cons]
        omega
      rw [e1]
      refine Nat.le_antisymm ?_ h
      -- the letters and digits are in one word, which the text after them may continue
      have hle := Words.splitAdv_run_le j (rest := b) (h3 x List.mem_cons_self) (fun z hz => h3 z (List.mem_cons_of_mem _ hz))
      rw [List.cons_append, Words.adv, if_pos (h3 x List.mem_cons_self)]
      have hcw : run.length ≤ countWhile Words.isASCIIAlphanumeric (run ++ b) := by
        have : ∀ r : Bytes, (∀ z ∈ r, Words.isASCIIAlphanumeric z = true) →
            r.length ≤ countWhile Words.isASCIIAlphanumeric (r ++ b) := by
          intro r
          induction r with
          | nil => intro _; simp
          | cons y r ih =>
            intro h
            rw [List.cons_append, countWhile, if_pos (h y List.mem_cons_self), List.length_cons]
            have := ih fun z hz => h z (List.mem_cons_of_mem _ hz)
            omega
        exact this run fun z hz => h3 z (List.mem_cons_of_mem _ hz)
      simp only [List.length_cons] at hle ⊢
      split
      · omega
      · rw [← List.cons_append]; omega

/-- C74 for the words of the iterator with joiners, whatever they are. -/
theorem C74_joiners (j : Option Words.Joiners) (a b : Bytes) (hw : Complete a) (ts tl : List Bytes)
    (h : tokens .words j (a ++ b) = .ok (ts ++ tl)) (hf : ts.flatten = a) :
    tokens .words j a = .ok ts ∧ tokens .words j b = .ok tl := by
  have hg := Iterator.goodAdv .words j
  have h := Except.ok.inj ((tokens_eq .words j _).symm.trans h)
  refine ⟨(tokens_eq .words j a).trans (congrArg _ (hg.divide (W := Complete) (fun _ _ hs hw => hw.suffix hs) b
    (fun a ha hw h => Words.iter_divide j ha hw h) ts a tl hw h hf)), (tokens_eq .words j b).trans (congrArg _ ?_)⟩
  have := hg.segs_resume _ _ _ h
  rw [hf, List.drop_left' rfl] at this
  exact this

-- with "-" in the middle and "#" at the start of words
example : tokens .words (some ⟨some [0x2D], some [0x23]⟩) (utf8 (chars "#a-b") ++ utf8 (chars " c-"))
      = .ok ([utf8 (chars "#a-b")] ++ [utf8 [' '], utf8 ['c'], utf8 ['-']])
    ∧ tokens .words (some ⟨some [0x2D], some [0x23]⟩) (utf8 (chars "#a-b")) = .ok [utf8 (chars "#a-b")] := by
  decide +kernel

/-- **C17** With joiners, whatever they are, a word of a text in UTF-8, tokenized again, is one token. -/
theorem C17_joiners (j : Option Words.Joiners) (s : List Char) :
    ∃ ts, tokens .words j (utf8 s) = .ok ts ∧ ∀ t ∈ ts, tokens .words j t = .ok [t] := by
  obtain ⟨ts, h1, h2⟩ := C07_iterator .words j (utf8 s) ⟨s, rfl⟩
  refine ⟨ts, h1, fun t ht => ?_⟩
  obtain ⟨q, rfl⟩ := h2 t ht
  obtain ⟨A, B, rfl⟩ := List.append_of_mem ht
  have h3 := (C38_resume .words j (utf8 s) A _ h1).2
  have h4 : (utf8 s).drop A.flatten.length = utf8 q ++ B.flatten := by
    obtain ⟨us, k1, k2, -⟩ := C01_lossless .words j ((utf8 s).drop A.flatten.length)
    rw [h3] at k1
    rw [← k2, ← Except.ok.inj k1, List.flatten_cons]
  rw [h4] at h3
  exact (C74_joiners j (utf8 q) B.flatten (complete_utf8 q) [utf8 q] B h3 (by simp)).1

-- "#a-b" with "-" in the middle and "#" at the start, again
example : tokens .words (some ⟨some [0x2D], some [0x23]⟩) (utf8 (chars "x #a-b-#")) = .ok [utf8 ['x'], utf8 [' '], utf8 (chars "#a-b"),
      utf8 ['-'], utf8 ['#']]
    ∧ tokens .words (some ⟨some [0x2D], some [0x23]⟩) (utf8 (chars "#a-b")) = .ok [utf8 (chars "#a-b")] := by
  decide +kernel

theorem controlString_shorten {terms : List Bytes} {body v b : Bytes} (hb : v ≠ [] ∨ ∀ c ∈ cancels, ¬ c <+: b)
    (h : controlString terms body (v ++ b)) : controlString terms body v := by
  obtain ⟨payload, t, h1, h2, h3⟩ := h
  refine ⟨payload, t, h1, ?_, ?_⟩
  · rcases h2 with h2 | ⟨h2, c, hc, hp⟩
    · exact .inl h2
    · refine .inr ⟨h2, c, hc, ?_⟩
      cases v with
      | nil => exact absurd hp (hb.resolve_left (fun h => h rfl) c hc)
      | cons x v =>
        refine List.prefix_of_prefix_length_le hp (List.prefix_append _ _) ?_
        simp only [cancels, List.mem_cons, List.not_mem_nil, or_false] at hc
        rcases hc with rfl | rfl <;> simp
  · intro x y hxy hy s hs hp
    refine h3 x y hxy hy s hs ?_
    rw [← List.append_assoc]
    exact hp.trans (List.prefix_append _ _)

theorem controlString_extend {terms : List Bytes} {body v : Bytes} (b : Bytes) (ht : ∀ s ∈ terms, s.length = 1 ∨ s.length = 2)
    (h : controlString terms body v) : controlString terms body (v ++ b) := by
  obtain ⟨payload, t, h1, h2, h3⟩ := h
  have hc1 : ∀ c ∈ cancels, c.length = 1 := by decide
  have hlen : 1 ≤ (t ++ v).length := by
    rcases h2 with h2 | ⟨h2, c, hc, hp⟩
    · have := ht t h2
      rw [List.length_append]; omega
    · have := hp.length_le
      rw [hc1 c hc] at this
      rw [List.length_append]; omega
  refine ⟨payload, t, h1, ?_, ?_⟩
  · rcases h2 with h2 | ⟨h2, c, hc, hp⟩
    · exact .inl h2
    · exact .inr ⟨h2, c, hc, hp.trans (List.prefix_append _ _)⟩
  · intro x y hxy hy s hs hp
    refine h3 x y hxy hy s hs ?_
    rw [← List.append_assoc] at hp
    refine List.prefix_of_prefix_length_le hp (List.prefix_append _ _) ?_
    have hy0 := List.length_pos_iff.mpr hy
    have : s.length ≤ 2 := by
      rcases List.mem_append.mp hs with h | h
      · have := ht s h; omega
      · have := hc1 s h; omega
    rw [List.append_assoc, List.length_append]
    omega

theorem Escape7.shorten {e v b : Bytes} (hb : v ≠ [] ∨ ∀ c ∈ cancels, ¬ c <+: b) (h : Escape7 e (v ++ b)) : Escape7 e v := by
  cases h with
  | csi h => exact .csi h
  | osc h => exact .osc (controlString_shorten hb h)
  | str hc h => exact .str hc (controlString_shorten hb h)
  | two hc hn => exact .two hc hn
  | nF hne hi hf => exact .nF hne hi hf

theorem Escape7.extend {e v : Bytes} (b : Bytes) (h : Escape7 e v) : Escape7 e (v ++ b) := by
  cases h with
  | csi h => exact .csi h
  | osc h => exact .osc (controlString_extend b (by decide) h)
  | str hc h => exact .str hc (controlString_extend b (by decide) h)
  | two hc hn => exact .two hc hn
  | nF hne hi hf => exact .nF hne hi hf

theorem Escape8.shorten {e v b : Bytes} (hb : v ≠ [] ∨ ∀ c ∈ cancels, ¬ c <+: b) (h : Escape8 e (v ++ b)) : Escape8 e v := by
  cases h with
  | csi h => exact .csi h
  | osc h => exact .osc (controlString_shorten hb h)
  | str hc h => exact .str hc (controlString_shorten hb h)
  | single hc hn => exact .single hc hn

theorem Escape8.extend {e v : Bytes} (b : Bytes) (h : Escape8 e v) : Escape8 e (v ++ b) := by
  cases h with
  | csi h => exact .csi h
  | osc h => exact .osc (controlString_extend b (by decide) h)
  | str hc h => exact .str hc (controlString_extend b (by decide) h)
  | single hc hn => exact .single hc hn

theorem Graphemes.iter_divide (o : Graphemes.Options) {a b : Bytes} (ha : a ≠ []) (hw : Complete a)
    (hb : Graphemes.adv o Graphemes.splitFunc (a ++ b) < a.length ∨ ∀ c ∈ cancels, ¬ c <+: b)
    (h : Graphemes.adv o Graphemes.splitFunc (a ++ b) ≤ a.length) :
    Graphemes.adv o Graphemes.splitFunc a = Graphemes.adv o Graphemes.splitFunc (a ++ b) := by
  have cut : ∀ {e v : Bytes}, a ++ b = e ++ v → e.length ≤ a.length → ∃ w, a = e ++ w ∧ v = w ++ b := by
    intro e v he hl
    rcases List.append_eq_append_iff.mp he with ⟨m, h1, h2⟩ | ⟨m, h1, h2⟩
    · have : m = [] := by
        have := congrArg List.length h1
        rw [List.length_append] at this
        exact List.eq_nil_of_length_eq_zero (by omega)
      subst this
      exact ⟨[], by simpa using h1.symm, by simpa using h2.symm⟩
    · exact ⟨m, h1, h2⟩
  have hb' : ∀ {e w : Bytes}, a = e ++ w → Graphemes.adv o Graphemes.splitFunc (a ++ b) = e.length →
      w ≠ [] ∨ ∀ c ∈ cancels, ¬ c <+: b := by
    intro e w he hl
    refine hb.imp_left ?_
    rintro hlt rfl
    rw [hl, he, List.append_nil] at hlt
    omega
  by_cases hesc : beginsEscape o.ansi7 o.ansi8 (a ++ b)
  · obtain ⟨e, v, he, ⟨ho, hE⟩ | ⟨ho, hE⟩⟩ := hesc
    · have hl : Graphemes.adv o Graphemes.splitFunc (a ++ b) = e.length := by rw [he, Graphemes.adv_escape7 ho hE]
      rw [hl] at h
      obtain ⟨w, hw, rfl⟩ := cut he h
      rw [hl, hw]
      exact Graphemes.adv_escape7 ho (Escape7.shorten (hb' hw hl) hE)
    · have hl : Graphemes.adv o Graphemes.splitFunc (a ++ b) = e.length := by rw [he, Graphemes.adv_escape8 ho hE]
      rw [hl] at h
      obtain ⟨w, hw, rfl⟩ := cut he h
      rw [hl, hw]
      exact Graphemes.adv_escape8 ho (Escape8.shorten (hb' hw hl) hE)
  · have hesc' : ¬ beginsEscape o.ansi7 o.ansi8 a := by
      rintro ⟨e, v, rfl, ⟨ho, hE⟩ | ⟨ho, hE⟩⟩
      · exact hesc ⟨e, v ++ b, by simp, .inl ⟨ho, Escape7.extend b hE⟩⟩
      · exact hesc ⟨e, v ++ b, by simp, .inr ⟨ho, Escape8.extend b hE⟩⟩
    rw [Graphemes.adv_noEscape hesc, Graphemes.advPlain_eq (by simp [ha])] at h ⊢
    rw [Graphemes.adv_noEscape hesc', Graphemes.advPlain_eq ha]
    exact divide_default .graphemes ha hw h

/-- C74 for graphemes with the options for escape sequences: it holds unless CAN or SUB follows the
boundary. -/
theorem C74_ansi (o : Graphemes.Options) (a b : Bytes) (hw : Complete a) (hb : ∀ c ∈ cancels, ¬ c <+: b)
    (ts tl : List Bytes) (h : tokens .graphemes o (a ++ b) = .ok (ts ++ tl)) (hf : ts.flatten = a) :
    tokens .graphemes o a = .ok ts ∧ tokens .graphemes o b = .ok tl := by
  have hg := Iterator.goodAdv .graphemes o
  have h := Except.ok.inj ((tokens_eq .graphemes o _).symm.trans h)
  refine ⟨(tokens_eq .graphemes o a).trans (congrArg _ (hg.divide (W := Complete) (fun _ _ hs hw => hw.suffix hs) b
    (fun a ha hw h => Graphemes.iter_divide o ha hw (.inr hb) h) ts a tl hw h hf)), (tokens_eq .graphemes o b).trans (congrArg _ ?_)⟩
  have := hg.segs_resume _ _ _ h
  rw [hf, List.drop_left' rfl] at this
  exact this

-- a colour, a letter, and a string that BEL ends
example : tokens .graphemes ⟨true, false⟩ ([0x1B, 0x5B, 0x31, 0x6D] ++ [0x61] ++ [0x1B, 0x5D, 0x78, 0x07] ++ [0x62])
      = .ok ([[0x1B, 0x5B, 0x31, 0x6D], [0x61], [0x1B, 0x5D, 0x78, 0x07]] ++ [[0x62]])
    ∧ tokens .graphemes ⟨true, false⟩ ([0x1B, 0x5B, 0x31, 0x6D] ++ [0x61] ++ [0x1B, 0x5D, 0x78, 0x07])
      = .ok [[0x1B, 0x5B, 0x31, 0x6D], [0x61], [0x1B, 0x5D, 0x78, 0x07]] := by
  decide +kernel

/-- A cancelled control string is a token only if the CAN after it is there. -/
theorem C74_cancel : ∃ a b ts tl, tokens .graphemes ⟨true, false⟩ (a ++ b) = .ok (ts ++ tl) ∧ ts.flatten = a
    ∧ Complete a ∧ tokens .graphemes ⟨true, false⟩ a ≠ .ok ts := by
  refine ⟨[0x1B, 0x5D, 0x78], [0x18], [[0x1B, 0x5D, 0x78]], [[0x18]], by decide +kernel, rfl, ?_, by decide +kernel⟩
  exact complete_utf8 [Char.ofNat 0x1B, ']', 'x']

/-- **C17** With the ANSI options a token that ends with a whole encoding, tokenized again, is one token unless CAN or SUB follows
it. -/
theorem C17_ansi (o : Graphemes.Options) (data : Bytes) (A : List Bytes) (t : Bytes) (B : List Bytes)
    (h : tokens .graphemes o data = .ok (A ++ t :: B)) (ht : Complete t) (hb : ∀ c ∈ cancels, ¬ c <+: B.flatten) :
    tokens .graphemes o t = .ok [t] := by
  have hg := Iterator.goodAdv .graphemes o
  have h := Except.ok.inj ((tokens_eq .graphemes o _).symm.trans h)
  have hr := hg.segs_resume data A (t :: B) h
  have hd : data.drop A.flatten.length = t ++ B.flatten := by
    have := hg.segs_flatten (data.drop A.flatten.length)
    rw [hr, List.flatten_cons] at this
    exact this.symm
  rw [hd] at hr
  exact (C74_ansi o t B.flatten ht hb [t] B ((tokens_eq .graphemes o _).trans (congrArg _ hr)) (by simp)).1

example : tokens .graphemes ⟨true, false⟩ ([0x61] ++ [0x1B, 0x5D, 0x78, 0x07] ++ [0x62])
      = .ok ([[0x61]] ++ [0x1B, 0x5D, 0x78, 0x07] :: [[0x62]])
    ∧ tokens .graphemes ⟨true, false⟩ [0x1B, 0x5D, 0x78, 0x07] = .ok [[0x1B, 0x5D, 0x78, 0x07]] := by
  decide +kernel

/-- **C17** With the ANSI option it fails: a control string that CAN cancels is one token, and without the CAN it is three. -/
theorem C17_ansi_fails : tokens .graphemes ⟨true, false⟩ [0x1B, 0x5D, 0x78, 0x18] = .ok [[0x1B, 0x5D, 0x78], [0x18]]
    ∧ tokens .graphemes ⟨true, false⟩ [0x1B, 0x5D, 0x78] = .ok [[0x1B], [0x5D], [0x78]] := by decide +kernel

end Uax29
