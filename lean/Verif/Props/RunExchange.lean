import Verif.Props.RunLength
import Verif.Props.JoinerGrammar
/-! # C103: runs may be exchanged one by one -/
namespace Uax29
open Spec

theorem divide_map {α β : Type} (g : α → β) : ∀ (ts : List (List β)) (s : List α), ts.flatten = s.map g →
    ∃ gs : List (List α), gs.flatten = s ∧ gs.map (List.map g) = ts
  | [], s, h => ⟨[], (List.map_eq_nil_iff.mp h.symm).symm, rfl⟩
  | t :: ts, s, h => by
    rw [List.flatten_cons] at h
    obtain ⟨a, b, rfl, h1, h2⟩ := List.map_eq_append_iff.mp h.symm
    obtain ⟨gs, h3, h4⟩ := divide_map g ts b h2.symm
    exact ⟨a :: gs, by rw [List.flatten_cons, h3], by rw [List.map_cons, h1, h4]⟩

theorem boundary_divided {α β : Type} (g : α → β) {gs : List (List α)} {a b : List α} (h : gs.flatten = a ++ b) :
    Boundary gs a ↔ Boundary (gs.map (List.map g)) (a.map g) := by
  have e : ∀ n, ((gs.map (List.map g)).take n).flatten = (gs.take n).flatten.map g := fun n => by
    rw [← List.map_take, List.map_flatten]
  constructor
  · rintro ⟨n, rfl⟩
    exact ⟨n, e n⟩
  · rintro ⟨n, h1⟩
    refine ⟨n, ?_⟩
    rw [e] at h1
    have h2 : (gs.take n).flatten ++ (gs.drop n).flatten = a ++ b := by
      rw [← List.flatten_append, List.take_append_drop, h]
    exact (List.append_inj h2 (by have := congrArg List.length h1; rwa [List.length_map, List.length_map] at this)).1

/-- Texts of the same runs, for rules that do not count. -/
theorem Uncounted.exchange {ε : Type} {T : Bytes → Except ε (List Bytes)} {K : Type} {J : List K → List K → Bool} {cl : Char → K} {forms : K → Bool}
    (hJ : Uncounted J cl forms)
    (h : ∀ s : List Char, ∃ ts : List (List Char), T (utf8 s) = .ok (ts.map utf8)
        ∧ ts.flatten = s ∧ (∀ w ∈ ts, w ≠ [])
        ∧ ∀ x y, s = x ++ y → (Boundary ts x ↔ breakOf J (x.map cl) (y.map cl) = true))
    (rs : List (List Char × List Char)) (hrs : ∀ r ∈ rs, SameRun cl forms r) :
    ∃ gs : List (List (List Char × List Char)), gs.flatten = rs
      ∧ T (utf8 (expand Prod.fst rs)) = .ok (gs.map fun g => utf8 (expand Prod.fst g))
      ∧ T (utf8 (expand Prod.snd rs)) = .ok (gs.map fun g => utf8 (expand Prod.snd g)) := by
  let hd : {r : List Char × List Char // SameRun cl forms r} → Char := fun q => q.1.1.head q.2.1
  have hhd : ∀ q, ∃ x, cl (hd q) = x ∧ (∀ c ∈ q.1.1, cl c = x) ∧ (∀ c ∈ q.1.2, cl c = x)
      ∧ (forms x = true ∨ (q.1.1.length = 1 ∧ q.1.2.length = 1)) := by
    rintro ⟨q, h1, h2, x, h3, h4, h5⟩
    exact ⟨x, h3 _ (List.head_mem _), h3, h4, h5⟩
  have r1 : Replacing (fun q : {r : List Char × List Char // SameRun cl forms r} => q.1.1) J (fun q => cl (hd q)) cl := by
    refine hJ.replacing (fun q => q.2.1) (fun q d hd => ?_) (fun q => ?_)
    · obtain ⟨x, rfl, h2, h3, h4⟩ := hhd q
      exact h2 d hd
    · obtain ⟨x, rfl, h2, h3, h4⟩ := hhd q
      exact h4.imp id And.left
  have r2 : Replacing (fun q : {r : List Char × List Char // SameRun cl forms r} => q.1.2) J (fun q => cl (hd q)) cl := by
    refine hJ.replacing (fun q => q.2.2.1) (fun q d hd => ?_) (fun q => ?_)
    · obtain ⟨x, rfl, h2, h3, h4⟩ := hhd q
      exact h3 d hd
    · obtain ⟨x, rfl, h2, h3, h4⟩ := hhd q
      exact h4.imp id And.right
  obtain ⟨qs, rfl⟩ : ∃ qs : List {r : List Char × List Char // SameRun cl forms r}, rs = qs.map (·.1) :=
    ⟨rs.attachWith _ hrs, (List.attachWith_map_subtype_val hrs).symm⟩
  obtain ⟨ts, h0, h1, h2, h3⟩ := h (qs.map hd)
  obtain ⟨gs, g1, rfl⟩ := divide_map hd ts qs h1
  have gne : ∀ g ∈ gs, g ≠ [] := fun g hg e => h2 _ (List.mem_map_of_mem hg) (by rw [e]; rfl)
  have gb : ∀ a b, qs = a ++ b → (Boundary gs a ↔ breakOf J (a.map fun q => cl (hd q)) (b.map fun q => cl (hd q)) = true) := by
    rintro a b rfl
    have := h3 (a.map hd) (b.map hd) (by rw [List.map_append])
    rw [boundary_divided hd g1, this, List.map_map, List.map_map]
    rfl
  have fin : ∀ f : List Char × List Char → List Char,
      Replacing (fun q : {r : List Char × List Char // SameRun cl forms r} => f q.1) J (fun q => cl (hd q)) cl →
      T (utf8 (expand f (qs.map (·.1)))) = .ok ((gs.map (List.map (·.1))).map fun g => utf8 (expand f g)) := by
    intro f hf
    have e : ∀ l : List {r : List Char × List Char // SameRun cl forms r},
        expand f (l.map (·.1)) = expand (fun q : {r : List Char × List Char // SameRun cl forms r} => f q.1) l := by
      intro l
      simp [expand, List.flatMap_map]
    obtain ⟨us, k0, k1, k2, k3⟩ := h (expand f (qs.map (·.1)))
    rw [e] at k1 k3
    rw [k0, hf.tokens g1 gne gb k1 k2 k3, List.map_map, List.map_map]
    congr 1
    apply List.map_congr_left
    intro g _
    simp only [Function.comp, e]
  exact ⟨gs.map (List.map (·.1)), by rw [← g1, List.map_flatten], fin Prod.fst r1, fin Prod.snd r2⟩

/-- **C103** Let two texts be made up of runs, where the runs at the same place have the same kind. Then their words
are made up of the runs at the same places, -/
theorem C103_words (rs : List (List Char × List Char)) (hrs : ∀ r ∈ rs, SameRun wordClasses (WSet.forms false) r) :
    ∃ gs : List (List (List Char × List Char)), gs.flatten = rs
      ∧ defaultTokens .words (utf8 (expand Prod.fst rs)) = .ok (gs.map fun g => utf8 (expand Prod.fst g))
      ∧ defaultTokens .words (utf8 (expand Prod.snd rs)) = .ok (gs.map fun g => utf8 (expand Prod.snd g)) :=
  (uncounted_words false).exchange C09_conform rs hrs

/-- the same for phrases, -/
theorem C103_phrases (rs : List (List Char × List Char)) (hrs : ∀ r ∈ rs, SameRun phraseClasses (WSet.forms true) r) :
    ∃ gs : List (List (List Char × List Char)), gs.flatten = rs
      ∧ defaultTokens .phrases (utf8 (expand Prod.fst rs)) = .ok (gs.map fun g => utf8 (expand Prod.fst g))
      ∧ defaultTokens .phrases (utf8 (expand Prod.snd rs)) = .ok (gs.map fun g => utf8 (expand Prod.snd g)) := by
  have h := C11_conform
  have e : phraseClasses = wordClasses := funext C33_classes
  rw [e] at h hrs
  exact (uncounted_words true).exchange h rs hrs

/-- graphemes -/
theorem C103_graphemes (rs : List (List Char × List Char)) (hrs : ∀ r ∈ rs, SameRun graphemeClasses GSet.forms r) :
    ∃ gs : List (List (List Char × List Char)), gs.flatten = rs
      ∧ defaultTokens .graphemes (utf8 (expand Prod.fst rs)) = .ok (gs.map fun g => utf8 (expand Prod.fst g))
      ∧ defaultTokens .graphemes (utf8 (expand Prod.snd rs)) = .ok (gs.map fun g => utf8 (expand Prod.snd g)) :=
  uncounted_graphemes.exchange C08_conform rs hrs

/-- and sentences. -/
theorem C103_sentences (rs : List (List Char × List Char)) (hrs : ∀ r ∈ rs, SameRun sentenceClass SB.forms r) :
    ∃ gs : List (List (List Char × List Char)), gs.flatten = rs
      ∧ defaultTokens .sentences (utf8 (expand Prod.fst rs)) = .ok (gs.map fun g => utf8 (expand Prod.fst g))
      ∧ defaultTokens .sentences (utf8 (expand Prod.snd rs)) = .ok (gs.map fun g => utf8 (expand Prod.snd g)) :=
  uncounted_sentences.exchange C10_conform rs hrs

/-- Words with middle joiners: those of the kinds before that are no joiners may form runs. -/
theorem uncounted_middle (M : List Int) :
    Uncounted (joins false) (withMiddle M) fun x => x.forms false && !x .MidNumLet := by
  have real : ∀ x : WSet, (x.forms false && !x .MidNumLet) = true → (∃ c, withMiddle M c = x) →
      x.forms false = true ∧ ∃ c, wordClasses c = x := by
    rintro x hx ⟨c, rfl⟩
    rw [Bool.and_eq_true] at hx
    refine ⟨hx.1, c, ?_⟩
    have hc : (c.val.toNat : Int) ∉ M := fun h => by
      have := hx.2
      simp only [withMiddle, h, decide_true, beq_self_eq_true, Bool.and_self, Bool.or_true] at this
      cases this
    funext g
    simp only [withMiddle, hc, decide_false, Bool.and_false, Bool.or_false]
  exact ⟨fun x h1 h2 => (uncounted_words false).left x (real x h1 h2).1 (real x h1 h2).2,
    fun x h1 h2 => (uncounted_words false).right x (real x h1 h2).1 (real x h1 h2).2,
    fun x h1 h2 => (uncounted_words false).inside x (real x h1 h2).1 (real x h1 h2).2⟩

/-- C103 with middle joiners other than the blank (see C31), for the kinds as they are with these joiners; a joiner is no run,
whatever it is otherwise. -/
theorem C103_middle (M : List Int) (hM : (0x20 : Int) ∉ M) (rs : List (List Char × List Char))
    (hrs : ∀ r ∈ rs, SameRun (withMiddle M) (fun x => x.forms false && !x .MidNumLet) r) :
    ∃ gs : List (List (List Char × List Char)), gs.flatten = rs
      ∧ tokens .words (some ⟨some M, none⟩) (utf8 (expand Prod.fst rs)) = .ok (gs.map fun g => utf8 (expand Prod.fst g))
      ∧ tokens .words (some ⟨some M, none⟩) (utf8 (expand Prod.snd rs)) = .ok (gs.map fun g => utf8 (expand Prod.snd g)) :=
  (uncounted_middle M).exchange (iterator_middle hM) rs hrs

/-- Two texts for the example: "Ann's 3.14!" and "Barbara's 22.5!". -/
def twoTexts : List (List Char × List Char) :=
  [(chars "Ann", chars "Barbara"), (chars "'", chars "'"), (chars "s", chars "s"), (chars " ", chars "  "),
    (chars "3", chars "22"), (chars ".", chars "."), (chars "14", chars "5"), (chars "!", chars "!")]

theorem twoTexts_runs : ∀ r ∈ twoTexts, SameRun wordClasses (WSet.forms false) r := by
  have key : ∀ a b : Char, Words.trie.prop a = Words.trie.prop b → wordClasses a = wordClasses b := by
    intro a b h
    rw [Words.wordClasses_eq, Words.wordClasses_eq, h]
  have all : (twoTexts.all fun r => !r.1.isEmpty && !r.2.isEmpty
      && r.1.all (fun c => decide (Words.trie.prop c = Words.trie.prop (r.1.headD ' ')))
      && r.2.all (fun c => decide (Words.trie.prop c = Words.trie.prop (r.1.headD ' ')))
      && ((wordClasses (r.1.headD ' ')).forms false || (r.1.length == 1 && r.2.length == 1))) = true := by decide +kernel
  intro r hr
  have := List.all_eq_true.mp all r hr
  simp only [Bool.and_eq_true, Bool.or_eq_true, Bool.not_eq_true', List.isEmpty_eq_false_iff, List.all_eq_true,
    decide_eq_true_eq, beq_iff_eq] at this
  obtain ⟨⟨⟨⟨h1, h2⟩, h3⟩, h4⟩, h5⟩ := this
  exact ⟨h1, h2, _, fun c hc => key _ _ (h3 c hc), fun c hc => key _ _ (h4 c hc), h5⟩

example : expand Prod.fst twoTexts = chars "Ann's 3.14!" ∧ expand Prod.snd twoTexts = chars "Barbara's  22.5!" := by
  decide +kernel
example : defaultTokens .words (utf8 (chars "Ann's 3.14!"))
    = .ok [utf8 (chars "Ann's"), utf8 (chars " "), utf8 (chars "3.14"), utf8 (chars "!")]
  ∧ defaultTokens .words (utf8 (chars "Barbara's  22.5!"))
    = .ok [utf8 (chars "Barbara's"), utf8 (chars "  "), utf8 (chars "22.5"), utf8 (chars "!")] := by decide +kernel
-- a run of another kind is different: with a digit in place of the letter, the apostrophe divides
example : defaultTokens .words (utf8 (chars "Ann's")) = .ok [utf8 (chars "Ann's")]
  ∧ defaultTokens .words (utf8 (chars "Ann'5")) = .ok [utf8 (chars "Ann"), utf8 (chars "'"), utf8 (chars "5")] := by
  decide +kernel

-- with the hyphen as a joiner
example : tokens .words (some ⟨some [0x2D], none⟩) (utf8 (chars "Ann-Sue b")) = .ok [utf8 (chars "Ann-Sue"), utf8 (chars " "), utf8 (chars "b")]
  ∧ tokens .words (some ⟨some [0x2D], none⟩) (utf8 (chars "B-C  ddd")) = .ok [utf8 (chars "B-C"), utf8 (chars "  "), utf8 (chars "ddd")] := by
  decide +kernel
-- a letter as a joiner is still a letter, but not of a kind that the theorem is about
example : (withMiddle ['b'.toNat] 'b').forms false = true ∧ withMiddle ['b'.toNat] 'b' .MidNumLet = true := by decide +kernel

end Uax29
