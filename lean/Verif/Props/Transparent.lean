import Verif.Proofs.Transparent
import Verif.Props.Words
import Verif.Props.Phrases
import Verif.Props.Sentences
/-! # Marks and format characters within words, phrases and sentences: C93 -/
namespace Uax29
open Spec

theorem transparent_tokens {σ : Type} {p : Pkg} {f : Char → σ} {J : List σ → List σ → Bool}
    (conform : ∀ s : List Char, ∃ ws : List (List Char), defaultTokens p (utf8 s) = .ok (ws.map utf8)
      ∧ ws.flatten = s ∧ (∀ w ∈ ws, w ≠ [])
      ∧ ∀ a b, s = a ++ b → (Boundary ws a ↔
        ((a.map f).isEmpty || (b.map f).isEmpty || !J (a.map f).reverse (b.map f)) = true))
    {a xs b : List Char} {c : Char}
    (h1 : ∀ left q, q ≠ [] → J left (q ++ xs.map f ++ b.map f) = J left (q ++ b.map f))
    (h2 : ∀ left right : List σ, J ((xs.map f).reverse ++ f c :: left) right = J (f c :: left) right)
    (h3 : ∀ r left right : List σ, r ≠ [] → J (r ++ ((xs.map f).reverse ++ f c :: left)) right = J (r ++ f c :: left) right)
    (h4 : ∀ x ∈ xs, ∀ d, d = c ∨ d ∈ xs → ∀ left right, J (f d :: left) (f x :: right) = true) :
    ∃ A t u B, defaultTokens p (utf8 (a ++ c :: b)) = .ok ((A ++ (t ++ c :: u) :: B).map utf8)
      ∧ defaultTokens p (utf8 (a ++ c :: xs ++ b)) = .ok ((A ++ (t ++ c :: xs ++ u) :: B).map utf8)
      ∧ A.flatten ++ t = a ∧ u ++ B.flatten = b := by
  obtain ⟨ws, k1, k2, k3, k4⟩ := conform (a ++ c :: b)
  obtain ⟨us, l1, l2, l3, l4⟩ := conform (a ++ c :: xs ++ b)
  obtain ⟨A, t, u, B, e1, e2, e3, e4⟩ := insert_tokens (ts := ws) (us := us) (a := a ++ [c]) (x := xs) (b := b)
    (by simp) (by simp [k2]) (by simp [l2]) k3 l3
    (by
      intro p q hpq hq
      rw [k4 p (q ++ b) (by rw [← List.append_assoc, ← hpq]; simp), l4 p (q ++ xs ++ b) (by
        rw [← List.append_assoc, ← List.append_assoc, ← hpq]; simp)]
      have := h1 (p.map f).reverse (q.map f) (by simpa using hq)
      simp only [List.map_append] at this ⊢
      rw [this]
      have e : ∀ l : List σ, (q.map f ++ l).isEmpty = false := by
        intro l
        cases q with
        | nil => exact absurd rfl hq
        | cons d q => rfl
      rw [List.append_assoc, e, e])
    (by
      intro y z hyz hz
      rw [l4 (a ++ [c] ++ y) (z ++ b) (by rw [hyz]; simp)]
      obtain ⟨x, z, rfl⟩ := List.exists_cons_of_ne_nil hz
      have hx : x ∈ xs := by rw [hyz]; simp
      have : ∃ d left, (d = c ∨ d ∈ xs) ∧ ((a ++ [c] ++ y).map f).reverse = f d :: left := by
        by_cases hy : y = []
        · exact ⟨c, (a.map f).reverse, .inl rfl, by simp [hy]⟩
        · refine ⟨y.getLast hy, ((a ++ [c] ++ y.dropLast).map f).reverse, .inr ?_, ?_⟩
          · rw [hyz]; simp [List.getLast_mem hy]
          · conv => lhs; rw [← List.dropLast_concat_getLast hy]
            simp
      obtain ⟨d, left, hd, he⟩ := this
      rw [he, List.cons_append, List.map_cons, h4 x hx d hd]
      simp)
    (by
      intro p q hpq
      rw [k4 (a ++ [c] ++ p) q (by rw [hpq]; simp), l4 (a ++ [c] ++ xs ++ p) q (by rw [hpq]; simp)]
      have e : ((a ++ [c] ++ p).map f).reverse = (p.map f).reverse ++ f c :: (a.map f).reverse := by simp
      have e' : ((a ++ [c] ++ xs ++ p).map f).reverse
          = (p.map f).reverse ++ ((xs.map f).reverse ++ f c :: (a.map f).reverse) := by simp
      rw [e, e']
      by_cases hp : p = []
      · subst hp
        simp only [List.map_nil, List.reverse_nil, List.nil_append]
        rw [h2]
        simp
      · rw [h3 _ _ _ (by simpa using hp)]
        simp)
  have ht := List.dropLast_concat_getLast e4
  have ec : A.flatten ++ t.dropLast = a ∧ [t.getLast e4] = [c] := by
    refine List.append_inj' ?_ rfl
    rw [List.append_assoc, ht, e3]
  have hc : t.getLast e4 = c := by simpa using ec.2
  rw [hc] at ht
  refine ⟨A, t.dropLast, u, B, ?_, ?_, ec.1, ?_⟩
  · have e : t.dropLast ++ c :: u = t ++ u := by
      conv => rhs; rw [← ht]
      simp
    rw [k1, e1, e]
  · have e : t.dropLast ++ c :: xs ++ u = t ++ xs ++ u := by
      conv => rhs; rw [← ht]
      simp
    rw [l1, e2, e]
  · have := k2
    rw [e1] at this
    simp only [List.flatten_append, List.flatten_cons] at this
    rw [show a ++ c :: b = A.flatten ++ t ++ b by rw [e3]; simp] at this
    simpa using this

/-- What WB4 says about the characters that it names. -/
theorem Words.mark_classes {x : Char} (h : wordClasses x .Extend = true ∨ wordClasses x .Format = true) :
    (wordClasses x).ignorable = true ∧ (wordClasses x).newline = false ∧ wordClasses x .ZWJ = false
      ∧ wordClasses x .WSegSpace = false := by
  have := okValue.all (P := fun v => (wset v .Extend = true ∨ wset v .Format = true) →
    (wset v).ignorable = true ∧ (wset v).newline = false ∧ wset v .ZWJ = false ∧ wset v .WSegSpace = false)
    (by decide +kernel) (okValue_of (wf.prop_value x))
  rw [wordClasses_eq] at h ⊢
  exact this h

theorem Phrases.mark_classes {x : Char} (h : phraseClasses x .Extend = true ∨ phraseClasses x .Format = true) :
    (phraseClasses x).ignorable = true ∧ (phraseClasses x).newline = false ∧ phraseClasses x .ZWJ = false
      ∧ phraseClasses x .WSegSpace = false := by
  have := okValue.all (P := fun v => (pset v .Extend = true ∨ pset v .Format = true) →
    (pset v).ignorable = true ∧ (pset v).newline = false ∧ pset v .ZWJ = false ∧ pset v .WSegSpace = false)
    (by decide +kernel) (okValue_of (wf.prop_value x))
  rw [phraseClasses_eq] at h ⊢
  exact this h

theorem Phrases.space_classes {x : Char} (h : phraseClasses x .WSegSpace = true) : (phraseClasses x).ignorable = false := by
  have := okValue.all (P := fun v => pset v .WSegSpace = true → (pset v).ignorable = false)
    (by decide +kernel) (okValue_of (wf.prop_value x))
  rw [phraseClasses_eq] at h ⊢
  exact this h

/-- **C93** Marks and format characters, any number of them, after a character that is no newline, ZWJ or space: the words
are those of the text without them, and they are in the word of that character. -/
theorem C93_words (a xs b : List Char) (c : Char)
    (hc : wordClasses c .CR = false ∧ wordClasses c .LF = false ∧ wordClasses c .Newline = false)
    (hz : wordClasses c .ZWJ = false) (hs : wordClasses c .WSegSpace = false)
    (hx : ∀ x ∈ xs, wordClasses x .Extend = true ∨ wordClasses x .Format = true) :
    ∃ A t u B, defaultTokens .words (utf8 (a ++ c :: b)) = .ok ((A ++ (t ++ c :: u) :: B).map utf8)
      ∧ defaultTokens .words (utf8 (a ++ c :: xs ++ b)) = .ok ((A ++ (t ++ c :: xs ++ u) :: B).map utf8)
      ∧ A.flatten ++ t = a ∧ u ++ B.flatten = b := by
  have hn : (wordClasses c).newline = false := by simp [WSet.newline, hc]
  have hm : ∀ y ∈ (xs.map wordClasses).reverse, y.ignorable = true ∧ y.newline = false ∧ y .ZWJ = false
      ∧ y .WSegSpace = false := by
    intro y hy
    rw [List.mem_reverse] at hy
    obtain ⟨x, h, rfl⟩ := List.mem_map.mp hy
    exact Words.mark_classes (hx x h)
  refine transparent_tokens (J := joins false) C09_conform ?_ ?_ ?_ ?_
  · intro left q hq
    exact joins_within (fun y hy => (hm y (List.mem_reverse.mpr hy)).1) hq
  · intro left right
    exact joins_after hm hn hz (.inl hs)
  · intro r left right hr
    exact joins_later (fun y hy => ⟨(hm y hy).1, (hm y hy).2.1⟩) hn hr
  · intro x h d hd left right
    obtain ⟨k1, k2, -, -⟩ := Words.mark_classes (hx x h)
    refine joins_mark ?_ k2 k1
    rcases hd with rfl | hd
    · exact hn
    · exact (Words.mark_classes (hx d hd)).2.1

/-- C93 for phrases; here the character may also be a space. -/
theorem C93_phrases (a xs b : List Char) (c : Char)
    (hc : phraseClasses c .CR = false ∧ phraseClasses c .LF = false ∧ phraseClasses c .Newline = false)
    (hz : phraseClasses c .ZWJ = false)
    (hx : ∀ x ∈ xs, phraseClasses x .Extend = true ∨ phraseClasses x .Format = true) :
    ∃ A t u B, defaultTokens .phrases (utf8 (a ++ c :: b)) = .ok ((A ++ (t ++ c :: u) :: B).map utf8)
      ∧ defaultTokens .phrases (utf8 (a ++ c :: xs ++ b)) = .ok ((A ++ (t ++ c :: xs ++ u) :: B).map utf8)
      ∧ A.flatten ++ t = a ∧ u ++ B.flatten = b := by
  have hn : (phraseClasses c).newline = false := by simp [WSet.newline, hc]
  have hm : ∀ y ∈ (xs.map phraseClasses).reverse, y.ignorable = true ∧ y.newline = false ∧ y .ZWJ = false
      ∧ y .WSegSpace = false := by
    intro y hy
    rw [List.mem_reverse] at hy
    obtain ⟨x, h, rfl⟩ := List.mem_map.mp hy
    exact Phrases.mark_classes (hx x h)
  refine transparent_tokens (J := joins true) C11_conform ?_ ?_ ?_ ?_
  · intro left q hq
    exact joins_within (fun y hy => (hm y (List.mem_reverse.mpr hy)).1) hq
  · intro left right
    refine joins_after hm hn hz ?_
    cases hs : phraseClasses c .WSegSpace with
    | false => exact .inl rfl
    | true => exact .inr ⟨rfl, Phrases.space_classes hs⟩
  · intro r left right hr
    exact joins_later (fun y hy => ⟨(hm y hy).1, (hm y hy).2.1⟩) hn hr
  · intro x h d hd left right
    obtain ⟨k1, k2, -, -⟩ := Phrases.mark_classes (hx x h)
    refine joins_mark ?_ k2 k1
    rcases hd with rfl | hd
    · exact hn
    · exact (Phrases.mark_classes (hx d hd)).2.1

/-- C93 for sentences: the character is no line end or separator. -/
theorem C93_sentences (a xs b : List Char) (c : Char)
    (hc : sentenceClass c ≠ .CR ∧ sentenceClass c ≠ .LF ∧ sentenceClass c ≠ .Sep)
    (hx : ∀ x ∈ xs, sentenceClass x = .Extend ∨ sentenceClass x = .Format) :
    ∃ A t u B, defaultTokens .sentences (utf8 (a ++ c :: b)) = .ok ((A ++ (t ++ c :: u) :: B).map utf8)
      ∧ defaultTokens .sentences (utf8 (a ++ c :: xs ++ b)) = .ok ((A ++ (t ++ c :: xs ++ u) :: B).map utf8)
      ∧ A.flatten ++ t = a ∧ u ++ B.flatten = b := by
  have hn : (sentenceClass c).paraSep = false := by simp [SB.paraSep, hc]
  have hi : ∀ x ∈ xs, (sentenceClass x).ignorable = true := fun x h => by
    rcases hx x h with h | h <;> simp [SB.ignorable, h]
  have hm : ∀ y ∈ (xs.map sentenceClass).reverse, y.ignorable = true := by
    intro y hy
    rw [List.mem_reverse] at hy
    obtain ⟨x, h, rfl⟩ := List.mem_map.mp hy
    exact hi x h
  refine transparent_tokens (J := sjoins) C10_conform ?_ ?_ ?_ ?_
  · intro left q hq
    exact sjoins_within (fun y hy => hm y (List.mem_reverse.mpr hy)) hq
  · intro left right
    exact sjoins_after hm hn
  · intro r left right hr
    exact sjoins_later hm hn hr
  · intro x h d hd left right
    refine sjoins_mark ?_ (hi x h)
    rcases hd with rfl | hd
    · exact hn
    · rcases hx d hd with h | h <;> rw [h] <;> rfl

-- "can't" and "a. 1" with an acute accent and a soft hyphen after one character: the words and sentences are the same
example : defaultTokens .words (utf8 "can't 1.5".toList) = .ok [utf8 "can't".toList, utf8 [' '], utf8 "1.5".toList]
    ∧ defaultTokens .words (utf8 "can'́­t 1.5".toList)
      = .ok [utf8 "can'́­t".toList, utf8 [' '], utf8 "1.5".toList] := by decide +kernel
example : defaultTokens .sentences (utf8 "a. B".toList) = .ok [utf8 "a. ".toList, utf8 ['B']]
    ∧ defaultTokens .sentences (utf8 "a.́­ B".toList) = .ok [utf8 "a.́­ ".toList, utf8 ['B']] := by
  decide +kernel
-- two spaces are one word, and two words with a mark between them, but one phrase; after a newline a mark is a word
example : defaultTokens .words (utf8 "  ".toList) = .ok [utf8 "  ".toList]
    ∧ defaultTokens .words (utf8 " ́ ".toList) = .ok [utf8 " ́".toList, utf8 [' ']]
    ∧ defaultTokens .phrases (utf8 " ́ ".toList) = .ok [utf8 " ́ ".toList]
    ∧ defaultTokens .words (utf8 "\ńa".toList) = .ok [utf8 ['\n'], utf8 ['́'], utf8 ['a']] := by
  decide +kernel

end Uax29
