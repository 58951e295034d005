import Verif.Model.Bleve
import Verif.Proofs.IllFormed
import Verif.Proofs.WordsConf
/-! # The loops of words/bleve_compat.go -/
namespace Uax29.Words
open Spec

/-- A non-zero table entry comes with a width. -/
theorem lookup_zero {d : Bytes} {v : Nat} (h : trie.lookup d = .ok (v, 0)) : v = 0 := by
  apply Classical.byContradiction
  intro hv
  obtain ⟨c, rest, rfl⟩ := strict.lookup_ne h hv
  rw [wf.lookup_encode c rest] at h
  simp only [Except.ok.injEq, Prod.mk.injEq] at h
  have := encode_pos c
  omega

theorem is_zero (m : Nat) : is 0 m = false := by simp [is]

theorem ne_zero_of_is {v m : Nat} (h : is v m = true) : v ≠ 0 := by
  rintro rfl
  rw [is_zero] at h
  cases h

/-- The chunks whose entries are not zero are characters. -/
theorem chunks_chars {d t : Bytes} {l : List (Nat × Bytes)} (h : Decodes trie d l t) (hl : ∀ x ∈ l, x.1 ≠ 0) :
    ∃ s : List Char, l = s.map fun c => (trie.prop c, String.utf8EncodeChar c) := by
  induction h with
  | nil => exact ⟨[], rfl⟩
  | tail => exact ⟨[], rfl⟩
  | cons ne look val rest ih =>
    obtain ⟨s, rfl⟩ := ih fun x hx => hl x (List.mem_cons_of_mem _ hx)
    obtain ⟨c, rfl, rfl⟩ := strict.chunk wf look (hl _ List.mem_cons_self)
    exact ⟨c :: s, rfl⟩

/-! ## BleveIdeographic -/

/-- The classes `BleveIdeographic` accepts after the first character. -/
abbrev ideoMask : Nat := _BleveIdeographic ||| _ExtendNumLet ||| _Ignore

theorem ideoLoop_eq {token : Bytes} : ∀ (l : List (Nat × Bytes)) (t : Bytes) (fuel pos : Nat), 0 < pos →
    pos ≤ token.length → Decodes trie (token.drop pos) l t → token.length - pos < fuel →
    ideoLoop token fuel pos = .ok (l.all (fun x => is x.1 ideoMask) && t.isEmpty)
  | l, t, 0, pos, _, _, _, hf => by omega
  | l, t, fuel + 1, pos, h0, hp, hd, hf => by
    rw [ideoLoop]
    generalize hdd : token.drop pos = d at hd
    have hlen : d.length = token.length - pos := by rw [← hdd]; simp
    cases hd with
    | nil =>
      simp only [List.length_nil] at hlen
      rw [if_neg (by omega)]
      rfl
    | tail ne look =>
      have := List.length_pos_iff.mpr ne
      rw [if_pos (by omega), lookupAt_eq hp, hdd, look]
      simp only []
      rw [if_neg (by omega), lookup_zero look, is_zero]
      simp [ne]
    | cons ne look val rest =>
      rename_i bs d v l
      have := List.length_pos_iff.mpr ne
      rw [List.length_append] at hlen
      rw [if_pos (by omega), lookupAt_eq hp, hdd, look]
      simp only []
      rw [if_neg (by omega)]
      split
      · rename_i hv
        rw [ideoLoop_eq l t fuel (pos + bs.length) (by omega) (by omega)
          (by rw [← List.drop_drop, hdd]; simpa using rest) (by omega)]
        simp only [List.all_cons]
        rw [hv, Bool.true_and]
      · rename_i hv
        simp only [List.all_cons]
        rw [Bool.eq_false_iff.mpr hv]
        rfl

theorem bleveIdeographic_eq {token : Bytes} {l : List (Nat × Bytes)} {t : Bytes} (hd : Decodes trie token l t) :
    bleveIdeographic token = .ok (l.head?.all (fun x => is x.1 _BleveIdeographic)
      && l.tail.all (fun x => is x.1 ideoMask) && t.isEmpty) := by
  unfold bleveIdeographic
  rw [ideoLoop]
  cases hd with
  | nil => rfl
  | tail ne look =>
    have := List.length_pos_iff.mpr ne
    rw [if_pos this, lookupAt_eq (by omega), List.drop_zero, look]
    simp only []
    rw [if_pos trivial, lookup_zero look, is_zero]
    simp [ne]
  | cons ne look val rest =>
    rename_i bs d v l
    have := List.length_pos_iff.mpr ne
    rw [if_pos (by simp; omega), lookupAt_eq (by omega), List.drop_zero, look]
    simp only []
    rw [if_pos trivial]
    split
    · rename_i hv
      rw [ideoLoop_eq l t _ (0 + bs.length) (by omega) (by simp) (by simpa using rest) (by simp; omega)]
      simp only [List.head?_cons, Option.all_some, List.tail_cons]
      rw [hv, Bool.true_and]
    · rename_i hv
      simp only [List.head?_cons, Option.all_some]
      rw [Bool.eq_false_iff.mpr hv]
      rfl

/-! ## BleveNumeric -/

/-- The classes of the characters that `BleveNumeric` looks at. -/
abbrev numMask : Nat := _Numeric ||| _ExtendNumLet ||| _MidNum ||| _MidNumLetQ

/-- What `BleveNumeric` joins without looking ahead: WB8, WB11, WB13a and WB13b. -/
def numRule (v p q : Nat) : Bool :=
  (is p _Numeric && is v _Numeric) || (is v _Numeric && is p (_MidNum ||| _MidNumLetQ) && is q _Numeric)
  || (is v _ExtendNumLet && is p (_Numeric ||| _ExtendNumLet)) || (is v _Numeric && is p _ExtendNumLet)

theorem numRest_some {next s' : NumState} (h : numRest next = some s') :
    s' = next ∧ numRule next.current next.lastExIgnore next.lastLastExIgnore = true := by
  unfold numRest at h
  split at h
  · rename_i h1
    cases h
    exact ⟨rfl, by simp_all [numRule]⟩
  · split at h
    · rename_i h1
      cases h
      exact ⟨rfl, by simp_all [numRule]⟩
    · cases h

/-- What one pass of the loop accepts. -/
theorem numStep_some {token : Bytes} {s s' : NumState} {v w : Nat} (h0 : 0 < s.pos)
    (hI : is s.current _Ignore = false) (hl : trie.lookupAt token s.pos = .ok (v, w))
    (h : numStep token s = .ok (some s')) :
    (s' = ⟨s.pos + w, v, s.current, s.lastExIgnore⟩ ∧ numRule v s.current s.lastExIgnore = true)
    ∨ (is v (_MidNum ||| _MidNumLetQ) = true ∧ is s.current _Numeric = true ∧ ∃ adv more,
        subsequentFrom trie _Ignore _Numeric token (s.pos + w) true = .ok (adv, more) ∧ adv ≠ notfound
        ∧ s' = ⟨s.pos + w + adv.toNat, v, s.current, s.lastExIgnore⟩) := by
  unfold numStep at h
  dsimp only at h
  rw [hI, hl] at h
  simp only [Bool.not_false, if_true] at h
  rw [if_neg (by omega)] at h
  split at h
  · rename_i h1
    cases h
    exact .inl ⟨rfl, by simp_all [numRule]⟩
  split at h
  · rename_i h1
    cases h
    exact .inl ⟨rfl, by simp_all [numRule]⟩
  split at h
  · rename_i h1
    simp only [Bool.and_eq_true] at h1
    split at h
    · cases h
    · rename_i adv more hsub
      split at h
      · rename_i hne
        cases h
        exact .inr ⟨h1.1, h1.2, adv, more, hsub, hne, rfl⟩
      · simp only [Except.ok.injEq] at h
        obtain ⟨rfl, h2⟩ := numRest_some h
        exact .inl ⟨rfl, h2⟩
  · simp only [Except.ok.injEq] at h
    obtain ⟨rfl, h2⟩ := numRest_some h
    exact .inl ⟨rfl, h2⟩

/-- All entries of `r` are joined, after `L`. -/
def AllJ : List Nat → List Nat → Prop
  | _, [] => True
  | L, x :: r => J L (x :: r) = true ∧ AllJ (x :: L) r

theorem AllJ.get : ∀ {r L : List Nat}, AllJ L r → ∀ a x b, r = a ++ x :: b → J (a.reverse ++ L) (x :: b) = true
  | [], _, _, a, x, b, h => by simp at h
  | c :: r, L, h, [], x, b, hx => by
    simp only [List.nil_append, List.cons.injEq] at hx
    obtain ⟨rfl, rfl⟩ := hx
    exact h.1
  | c :: r, L, h, e :: a, x, b, hx => by
    simp only [List.cons_append, List.cons.injEq] at hx
    obtain ⟨rfl, rfl⟩ := hx
    have := h.2.get a x b rfl
    simpa using this

/-- What is known about a table entry. -/
theorem num_entry {v : Nat} (h : trie.IsValue v) :
    Blank (wset v) ∧ (is v _Ignore = true → (wset v).newline = false)
    ∧ (is v numMask = true → is v _Ignore = false ∧ (wset v).newline = false) := by
  have := okValue.all (P := fun v => ((wset v).ignorable = true →
      ∀ g ∈ allWB, g ≠ .Extend → g ≠ .Format → g ≠ .ZWJ → wset v g = false)
    ∧ (is v _Ignore = true → (wset v).newline = false)
    ∧ (is v numMask = true → is v _Ignore = false ∧ (wset v).newline = false)) (by decide +kernel) (okValue_of h)
  exact ⟨fun h g => this.1 h g (mem_allWB g), this.2⟩

/-- Ignored entries are joined. -/
theorem allJ_ignored : ∀ (ig r L : List Nat), L ≠ [] → (∀ x ∈ L, (wset x).newline = false) →
    (∀ x ∈ ig, is x _Ignore = true ∧ (wset x).newline = false) → AllJ (ig.reverse ++ L) r → AllJ L (ig ++ r)
  | [], _, _, _, _, _, h => h
  | x :: ig, r, L, hne, hL, hig, h => by
    obtain ⟨a, L, rfl⟩ := List.exists_cons_of_ne_nil hne
    have hx := hig x List.mem_cons_self
    refine ⟨?_, ?_⟩
    · simp only [J, List.map_cons, joins]
      have h1 := hL a List.mem_cons_self
      rw [is_ignore] at hx
      simp [h1, hx.1, hx.2]
    · refine allJ_ignored ig r (x :: a :: L) (by simp) ?_ (fun y hy => hig y (List.mem_cons_of_mem _ hy)) ?_
      · intro y hy
        rcases List.mem_cons.mp hy with rfl | hy
        · exact hx.2
        · exact hL y hy
      · simpa using h

/-- The state `s` after the entries `L`, nearest first. -/
structure NumCtx (s : NumState) (L : List Nat) : Prop where
  ne : L ≠ []
  value : ∀ x ∈ L, trie.IsValue x
  noNewline : ∀ x ∈ L, (wset x).newline = false
  current : s.current = exOf _Ignore L
  last : s.lastExIgnore = exexOf _Ignore L
  mask : is s.current numMask = true

theorem NumCtx.valueOf {s : NumState} {L : List Nat} (h : NumCtx s L) : trie.IsValue s.current := by
  have hm := h.mask
  have hv := h.value
  rw [h.current] at hm ⊢
  have key : ∀ l : List Nat, (∀ x ∈ l, trie.IsValue x) → is (exOf _Ignore l) numMask = true → trie.IsValue (exOf _Ignore l) := by
    intro l
    induction l with
    | nil => intro _ h; simp [exOf, is] at h
    | cons a l ih =>
      intro h1 h2
      rw [exOf] at h2 ⊢
      split
      · rename_i h3
        rw [if_pos h3] at h2
        exact ih (fun x hx => h1 x (List.mem_cons_of_mem _ hx)) h2
      · exact h1 a List.mem_cons_self
  exact key L hv hm

/-- The rules that `numRule` stands for join. -/
theorem NumCtx.joins {s : NumState} {L : List Nat} (h : NumCtx s L) {v : Nat} {r : List Nat}
    (hv : (wset v).newline = false)
    (hr : (numRule v s.current s.lastExIgnore
      || (is v (_MidNum ||| _MidNumLetQ) && is s.current _Numeric && afterIs wset (· .Numeric) r)) = true) :
    J L (v :: r) = true := by
  obtain ⟨a, L, rfl⟩ := List.exists_cons_of_ne_nil h.ne
  have T := fun {P} (hP : Solid P) => units_tests is_ignore wset_zero (left := a :: L) (by simp)
    (fun x hx => h.noNewline x (List.mem_cons_of_mem _ (by simpa using hx)))
    (fun x hx => (num_entry (h.value x (List.mem_of_getLast? hx))).1) hP
  simp only [List.map_cons] at T
  have ha := h.noNewline a List.mem_cons_self
  simp only [J, List.map_cons, Spec.joins, ha, hv]
  split
  · rfl
  rw [if_neg (by simp)]
  split
  · rfl
  split
  · rfl
  split
  · rfl
  simp only [numRule, is_or, Bool.or_eq_true, Bool.and_eq_true] at hr
  rw [h.current, h.last] at hr
  unfold unitJoins
  simp only []
  rw [(T (solid_alnum false)).1,
    (T (P := (· .Numeric)) (solid_class (by decide) (by decide) (by decide))).1,
    (T (P := (· .Numeric)) (solid_class (by decide) (by decide) (by decide))).2,
    (T (P := (· .ExtendNumLet)) (solid_class (by decide) (by decide) (by decide))).1,
    (T solid_midNum).1, (T (solid_13a false)).1]
  have e : ∀ g n, wset n g = is n (wbBit g) := fun _ _ => rfl
  have hA : afterIs wset (· .Numeric) r = true → ((r.map wset).dropWhile (·.ignorable)).head?.any (· .Numeric) = true := id
  simp only [WSet.alnum, WSet.midNum, WSet.midNumLetQ, e, wbBit] at hA ⊢
  simp only [_MidNumLetQ, is_or, Bool.or_eq_true] at hr
  rcases hr with (((h1 | h1) | h1) | h1) | ⟨⟨h1, h2⟩, h3⟩
  · simp [h1.1, h1.2]
  · obtain ⟨⟨h1, h2 | h2 | h2⟩, h3⟩ := h1 <;> simp [h1, h2, h3]
  · obtain ⟨h1, h2 | h2⟩ := h1 <;> simp [h1, h2]
  · simp [h1.1, h1.2]
  · have h4 := hA h3
    rcases h1 with h1 | h1 | h1 <;> simp [h1, h2, h4]

theorem foundIn_split {I props : Nat} {l : List (Nat × Bytes)} (h : foundIn I props l = true) :
    ∃ ig y r, l = ig ++ y :: r ∧ (∀ x ∈ ig, is x.1 I = true) ∧ is y.1 props = true
      ∧ l.takeWhile (fun x => is x.1 I) = ig := by
  induction l with
  | nil => simp [foundIn] at h
  | cons a l ih =>
    by_cases ha : is a.1 I = true
    · obtain ⟨ig, y, r, rfl, h1, h2, h3⟩ := ih (by simpa [foundIn, ha] using h)
      refine ⟨a :: ig, y, r, rfl, ?_, h2, by rw [List.takeWhile_cons, if_pos ha, h3]⟩
      intro x hx
      rcases List.mem_cons.mp hx with rfl | hx
      · exact ha
      · exact h1 x hx
    · refine ⟨[], a, l, rfl, by simp, by simpa [foundIn, ha] using h, by rw [List.takeWhile_cons, if_neg ha]⟩

theorem exOf_ignored {I : Nat} {L : List Nat} : ∀ {ig : List Nat}, (∀ x ∈ ig, is x I = true) → exOf I (ig ++ L) = exOf I L
  | [], _ => rfl
  | a :: ig, h => by
    rw [List.cons_append, exOf, if_pos (h a List.mem_cons_self),
      exOf_ignored fun x hx => h x (List.mem_cons_of_mem _ hx)]

theorem exexOf_ignored {I : Nat} {L : List Nat} : ∀ {ig : List Nat}, (∀ x ∈ ig, is x I = true) →
    exexOf I (ig ++ L) = exexOf I L
  | [], _ => rfl
  | a :: ig, h => by
    rw [List.cons_append, exexOf, if_pos (h a List.mem_cons_self),
      exexOf_ignored fun x hx => h x (List.mem_cons_of_mem _ hx)]

/-- What `BleveNumeric` accepts after the first character. -/
theorem numLoop_true {token : Bytes} : ∀ (fuel : Nat) (s : NumState) (l : List (Nat × Bytes)) (t : Bytes) (L : List Nat),
    0 < s.pos → s.pos ≤ token.length → Decodes trie (token.drop s.pos) l t → NumCtx s L →
    numLoop token fuel s = .ok true →
    t = [] ∧ (∀ x ∈ l, is x.1 (numMask ||| _Ignore) = true) ∧ AllJ L (l.map (·.1))
  | 0, s, l, t, L, _, _, _, _, h => by simp [numLoop] at h
  | fuel + 1, s, l, t, L, h0, hp, hd, hc, h => by
    have hI := (num_entry hc.valueOf).2.2 hc.mask
    rw [numLoop] at h
    generalize hdd : token.drop s.pos = d at hd
    have hlen : d.length = token.length - s.pos := by rw [← hdd]; simp
    cases hd with
    | nil => exact ⟨rfl, by simp, trivial⟩
    | tail ne look =>
      exfalso
      have := List.length_pos_iff.mpr ne
      rw [if_pos (by omega)] at h
      split at h
      · cases h
      · cases h
      · rename_i s' hs'
        have hl := lookupAt_eq (T := trie) hp
        rw [hdd, look] at hl
        have h1 := numStep_some h0 hI.1 hl hs'
        rw [lookup_zero look] at h1
        simp [numRule, is_zero] at h1
    | cons ne look val rest =>
      rename_i bs d v l
      have := List.length_pos_iff.mpr ne
      rw [List.length_append] at hlen
      rw [if_pos (by omega)] at h
      split at h
      · cases h
      · cases h
      rename_i s' hs'
      have hl := lookupAt_eq (T := trie) hp
      rw [hdd, look] at hl
      have hdrop : token.drop (s.pos + bs.length) = d := by rw [← List.drop_drop, hdd]; simp
      rcases numStep_some h0 hI.1 hl hs' with ⟨rfl, h1⟩ | ⟨h1, h2, adv, more, h3, h4, rfl⟩
      · have hm : is v numMask = true := by
          simp only [numRule, is_or, _MidNumLetQ, Bool.or_eq_true, Bool.and_eq_true] at h1 ⊢
          rcases h1 with ((h1 | h1) | h1) | h1 <;> simp [h1]
        obtain ⟨hv1, hv2⟩ := (num_entry val).2.2 hm
        have hctx : NumCtx ⟨s.pos + bs.length, v, s.current, s.lastExIgnore⟩ (v :: L) := by
          refine ⟨by simp, ?_, ?_, ?_, ?_, hm⟩
          · intro x hx
            rcases List.mem_cons.mp hx with rfl | hx
            · exact val
            · exact hc.value x hx
          · intro x hx
            rcases List.mem_cons.mp hx with rfl | hx
            · exact hv2
            · exact hc.noNewline x hx
          · simp [exOf, hv1]
          · simp [exexOf, hv1, hc.current]
        obtain ⟨i1, i2, i3⟩ := numLoop_true fuel _ l t (v :: L) (by simp; omega) (by simp; omega)
          (by simpa only [hdrop] using rest) hctx h
        refine ⟨i1, ?_, ?_, i3⟩
        · intro x hx
          rcases List.mem_cons.mp hx with rfl | hx
          · rw [is_or, hm, Bool.true_or]
          · exact i2 x hx
        · exact hc.joins hv2 (by rw [h1, Bool.true_or])
      · have hm : is v numMask = true := by
          simp only [is_or, _MidNumLetQ, Bool.or_eq_true] at h1 ⊢
          rcases h1 with h1 | h1 | h1 <;> simp [h1]
        obtain ⟨hv1, hv2⟩ := (num_entry val).2.2 hm
        rw [subsequentFrom_decodes _ _ (by omega) (by rw [hdrop]; exact rest)] at h3
        simp only [Except.ok.injEq, Prod.mk.injEq] at h3
        obtain ⟨h3, rfl⟩ := h3
        split at h3
        · rename_i hf
          subst h3
          rw [Int.toNat_natCast] at h
          obtain ⟨ig, y, r, rfl, hig, hy, htake⟩ := foundIn_split hf
          rw [htake] at h
          have hval := rest.values
          have hdec := rest.drop ig.length (by simp)
          rw [List.take_left, List.drop_left] at hdec
          have hlen2 := congrArg List.length rest.flatten
          simp only [List.flatMap_append, List.flatMap_cons, List.length_append] at hlen2
          have hig2 : ∀ x ∈ ig.map (·.1), is x _Ignore = true ∧ (wset x).newline = false := by
            intro x hx
            obtain ⟨z, hz, rfl⟩ := List.mem_map.mp hx
            exact ⟨hig z hz, (num_entry (hval z (by simp [hz])).1).2.1 (hig z hz)⟩
          have hL : ∀ x ∈ v :: L, trie.IsValue x ∧ (wset x).newline = false := by
            intro x hx
            rcases List.mem_cons.mp hx with rfl | hx
            · exact ⟨val, hv2⟩
            · exact ⟨hc.value x hx, hc.noNewline x hx⟩
          have hctx : NumCtx ⟨s.pos + bs.length + (bytesOf ig).length, v, s.current, s.lastExIgnore⟩
              ((ig.map (·.1)).reverse ++ v :: L) := by
            refine ⟨by simp, ?_, ?_, ?_, ?_, hm⟩
            · intro x hx
              rcases List.mem_append.mp hx with hx | hx
              · obtain ⟨z, hz, rfl⟩ := List.mem_map.mp (List.mem_reverse.mp hx)
                exact (hval z (by simp [hz])).1
              · exact (hL x hx).1
            · intro x hx
              rcases List.mem_append.mp hx with hx | hx
              · exact (hig2 x (List.mem_reverse.mp hx)).2
              · exact (hL x hx).2
            · rw [exOf_ignored fun x hx => (hig2 x (List.mem_reverse.mp hx)).1]
              simp [exOf, hv1]
            · rw [exexOf_ignored fun x hx => (hig2 x (List.mem_reverse.mp hx)).1]
              simp [exexOf, hv1, hc.current]
          obtain ⟨i1, i2, i3⟩ := numLoop_true fuel _ (y :: r) t _ (by simp; omega)
            (by simp only [bytesOf]; omega)
            (by rw [← List.drop_drop, hdrop]; exact hdec) hctx h
          refine ⟨i1, ?_, ?_, ?_⟩
          · intro x hx
            rcases List.mem_cons.mp hx with rfl | hx
            · rw [is_or, hm, Bool.true_or]
            · rcases List.mem_append.mp hx with hx | hx
              · rw [is_or, hig x hx, Bool.or_true]
              · exact i2 x hx
          · refine hc.joins hv2 ?_
            rw [h1, h2, Bool.true_and, Bool.true_and, Bool.or_eq_true]
            right
            have := foundIn_eq (cell := Prod.fst) (fun _ => rfl) (props := _Numeric) (P := (· .Numeric)) (fun _ => rfl)
              (ig ++ y :: r)
            exact this.symm.trans hf
          · rw [List.map_append]
            exact allJ_ignored _ _ _ (by simp) (fun x hx => (hL x hx).2) hig2 i3
        · exact absurd h3.symm h4

/-- What `BleveNumeric` accepts. -/
theorem bleveNumeric_true {token : Bytes} {l : List (Nat × Bytes)} {t : Bytes} (hne : token ≠ [])
    (hd : Decodes trie token l t) (h : bleveNumeric token = .ok true) :
    t = [] ∧ ∃ x r, l = x :: r ∧ is x.1 (_Numeric ||| _ExtendNumLet) = true
      ∧ (∀ y ∈ l, is y.1 (numMask ||| _Ignore) = true) ∧ AllJ [x.1] (r.map (·.1)) := by
  unfold bleveNumeric at h
  rw [numLoop, if_pos (by simpa using List.length_pos_iff.mpr hne)] at h
  unfold numStep at h
  dsimp only at h
  rw [lookupAt_eq (Nat.zero_le _), List.drop_zero] at h
  cases hd with
  | nil => exact absurd rfl hne
  | tail ne look =>
    rw [look, lookup_zero look] at h
    simp [is_zero] at h
  | cons ne look val rest =>
    rename_i bs d v l
    have := List.length_pos_iff.mpr ne
    rw [look] at h
    simp only [if_true] at h
    split at h
    · cases h
    · cases h
    rename_i s' hs'
    simp only [Except.ok.injEq] at hs'
    split at hs'
    · rename_i hv
      cases hs'
      have hm : is v numMask = true := by
        simp only [is_or, Bool.or_eq_true] at hv ⊢
        rcases hv with hv | hv <;> simp [hv]
      obtain ⟨hv1, hv2⟩ := (num_entry val).2.2 hm
      obtain ⟨i1, i2, i3⟩ := numLoop_true _ _ l t [v] (by simp; omega) (by simp) (by simpa using rest)
        ⟨by simp, by simpa using val, by simpa using hv2, by simp [exOf, hv1], by simp [exexOf, exOf, is_zero, hv1], hm⟩ h
      refine ⟨i1, _, l, rfl, hv, ?_, i3⟩
      intro y hy
      rcases List.mem_cons.mp hy with rfl | hy
      · rw [is_or, hm, Bool.true_or]
      · exact i2 y hy
    · cases hs'

/-- `BleveNumeric` returns. -/
theorem numLoop_total {token : Bytes} : ∀ (fuel : Nat) (s : NumState), s.pos ≤ token.length →
    token.length - s.pos < fuel → ∃ b, numLoop token fuel s = .ok b
  | 0, _, _, h => by omega
  | fuel + 1, s, hp, hf => by
    rw [numLoop]
    split
    · rename_i hlt
      have hne : token.drop s.pos ≠ [] := by
        intro h
        have := List.drop_eq_nil_iff.mp h
        omega
      obtain ⟨v, w, hl, hw, _, hval⟩ := wf.lookup_ok hne
      rw [← lookupAt_eq hp] at hl
      have hw' : s.pos + w ≤ token.length := by simp at hw; omega
      have hpos : v ≠ 0 → 0 < w := by
        intro h
        apply Nat.pos_of_ne_zero
        rintro rfl
        rw [lookupAt_eq hp] at hl
        exact h (lookup_zero hl)
      have key : ∃ r, numStep token s = .ok r ∧ ∀ s', r = some s' → s.pos < s'.pos ∧ s'.pos ≤ token.length := by
        unfold numStep
        dsimp only
        rw [hl]
        dsimp only
        generalize (if (!is s.current _Ignore) = true then s.lastExIgnore else s.lastLastExIgnore) = q
        generalize (if (!is s.current _Ignore) = true then s.current else s.lastExIgnore) = p
        obtain ⟨l, t, hd⟩ := wf.decodes (token.drop (s.pos + w))
        have hrest : ∀ next : NumState, next.pos = s.pos + w → next.current = v →
            ∀ s', numRest next = some s' → s.pos < s'.pos ∧ s'.pos ≤ token.length := by
          intro next h1 h2 s' h
          obtain ⟨rfl, h3⟩ := numRest_some h
          rw [h1]
          refine ⟨?_, hw'⟩
          have := hpos (by rintro rfl; rw [h2] at h3; simp [numRule, is_zero] at h3)
          omega
        split
        · refine ⟨_, rfl, ?_⟩
          intro s' hs'
          split at hs'
          · rename_i h
            cases hs'
            have := hpos (ne_zero_of_is h)
            exact ⟨by simp; omega, hw'⟩
          · cases hs'
        split
        · rename_i h
          refine ⟨_, rfl, ?_⟩
          intro s' hs'
          cases hs'
          have := hpos (ne_zero_of_is (Bool.and_eq_true_iff.mp h).2)
          exact ⟨by simp; omega, hw'⟩
        split
        · rename_i h
          refine ⟨_, rfl, ?_⟩
          intro s' hs'
          cases hs'
          have := hpos (ne_zero_of_is (Bool.and_eq_true_iff.mp (Bool.and_eq_true_iff.mp h).1).1)
          exact ⟨by simp; omega, hw'⟩
        split
        · rename_i h
          have := hpos (ne_zero_of_is (Bool.and_eq_true_iff.mp h).1)
          rw [subsequentFrom_decodes _ _ hw' hd]
          dsimp only
          split
          · refine ⟨_, rfl, ?_⟩
            intro s' hs'
            cases hs'
            have hlen2 := congrArg List.length hd.flatten
            have h2 : (bytesOf (l.takeWhile fun x => is x.1 _Ignore)).length ≤ (l.flatMap (·.2)).length := by
              have h3 := congrArg (fun l => (bytesOf l).length)
                (List.takeWhile_append_dropWhile (p := fun x : Nat × Bytes => is x.1 _Ignore) (l := l))
              simp only [bytesOf, List.flatMap_append, List.length_append] at h3 ⊢
              omega
            simp only [List.length_append, List.length_drop] at hlen2
            rw [Int.toNat_natCast]
            constructor
            · dsimp only; omega
            · dsimp only; omega
          · exact ⟨_, rfl, hrest _ rfl rfl⟩
        · exact ⟨_, rfl, hrest _ rfl rfl⟩
      obtain ⟨r, h1, h2⟩ := key
      rw [h1]
      cases r with
      | none => exact ⟨_, rfl⟩
      | some s' =>
        have := h2 s' rfl
        exact numLoop_total fuel s' this.2 (by omega)
    · exact ⟨_, rfl⟩

theorem bleveNumeric_total (token : Bytes) : ∃ b, bleveNumeric token = .ok b :=
  numLoop_total _ _ (Nat.zero_le _) (by simp)

/-! ## Exactly which tokens `BleveNumeric` accepts -/

/-- What is known about a table entry, the classes of numbers. -/
theorem num_excl {v : Nat} (h : trie.IsValue v) :
    (is v (_MidNum ||| _MidNumLetQ) = true → is v _Numeric = false ∧ is v _ExtendNumLet = false)
    ∧ (is v numMask = true → is v _Ignore = false) := by
  exact okValue.all (P := fun v =>
    (is v (_MidNum ||| _MidNumLetQ) = true → is v _Numeric = false ∧ is v _ExtendNumLet = false)
    ∧ (is v numMask = true → is v _Ignore = false)) (by decide +kernel) (okValue_of h)

/-- `Spec.NumberTail` for table entries. -/
inductive NumT : Nat → List Nat → Prop
  | done {p} : NumT p []
  | next {p v r} : is v (_Numeric ||| _ExtendNumLet) = true → NumT v r → NumT p (v :: r)
  | separated {p m ig d r} : is p _Numeric = true → is m (_MidNum ||| _MidNumLetQ) = true →
      (∀ x ∈ ig, is x _Ignore = true) → is d _Numeric = true → NumT d r → NumT p (m :: (ig ++ d :: r))

theorem numMask_of {v : Nat} (h : is v (_Numeric ||| _ExtendNumLet) = true ∨ is v (_MidNum ||| _MidNumLetQ) = true) :
    is v numMask = true := by
  simp only [is_or, Bool.or_eq_true] at h ⊢
  grind

/-- Soundness. -/
theorem numT_of_loop {token : Bytes} : ∀ (fuel : Nat) (s : NumState) (l : List (Nat × Bytes)) (t : Bytes),
    0 < s.pos → s.pos ≤ token.length → Decodes trie (token.drop s.pos) l t → trie.IsValue s.current →
    is s.current (_Numeric ||| _ExtendNumLet) = true →
    numLoop token fuel s = .ok true → NumT s.current (l.map (·.1))
  | 0, s, l, t, _, _, _, _, _, h => by simp [numLoop] at h
  | fuel + 1, s, l, t, h0, hp, hd, hcv, hc, h => by
    have hI := (num_excl hcv).2 (numMask_of (.inl hc))
    have hM : is s.current (_MidNum ||| _MidNumLetQ) = false := by
      rw [Bool.eq_false_iff]
      intro hm
      have := (num_excl hcv).1 hm
      rw [is_or, this.1, this.2] at hc
      cases hc
    rw [numLoop] at h
    generalize hdd : token.drop s.pos = d at hd
    have hlen : d.length = token.length - s.pos := by rw [← hdd]; simp
    cases hd with
    | nil => exact .done
    | tail ne look => exact .done
    | cons ne look val rest =>
      rename_i bs d v l
      have := List.length_pos_iff.mpr ne
      rw [List.length_append] at hlen
      rw [if_pos (by omega)] at h
      split at h
      · cases h
      · cases h
      rename_i s' hs'
      have hl := lookupAt_eq (T := trie) hp
      rw [hdd, look] at hl
      have hdrop : token.drop (s.pos + bs.length) = d := by rw [← List.drop_drop, hdd]; simp
      rcases numStep_some h0 hI hl hs' with ⟨rfl, h1⟩ | ⟨h1, h2, adv, more, h3, h4, rfl⟩
      · have hv : is v (_Numeric ||| _ExtendNumLet) = true := by
          rw [numRule, hM] at h1
          rw [is_or]
          simp only [Bool.or_eq_true, Bool.and_eq_true] at h1 ⊢
          grind
        exact .next hv (numT_of_loop fuel _ l t (by simp; omega) (by simp; omega)
          (by simpa only [hdrop] using rest) val hv h)
      · rw [subsequentFrom_decodes _ _ (by omega) (by rw [hdrop]; exact rest)] at h3
        simp only [Except.ok.injEq, Prod.mk.injEq] at h3
        obtain ⟨h3, rfl⟩ := h3
        split at h3
        · rename_i hf
          subst h3
          rw [Int.toNat_natCast] at h
          obtain ⟨ig, y, r, rfl, hig, hy, htake⟩ := foundIn_split hf
          rw [htake] at h
          have hval := rest.values
          have hdec := rest.drop ig.length (by simp)
          rw [List.take_left, List.drop_left] at hdec
          have hlen2 := congrArg List.length rest.flatten
          simp only [List.flatMap_append, List.flatMap_cons, List.length_append] at hlen2
          have hpos2 : s.pos + bs.length + (bytesOf ig).length ≤ token.length := by
            simp only [bytesOf]; omega
          have hdrop2 : token.drop (s.pos + bs.length + (bytesOf ig).length) = d.drop (bytesOf ig).length := by
            rw [← List.drop_drop, hdrop]
          rw [List.map_cons, List.map_append, List.map_cons]
          refine .separated h2 h1 ?_ hy ?_
          · intro x hx
            obtain ⟨z, hz, rfl⟩ := List.mem_map.mp hx
            exact hig z hz
          cases fuel with
          | zero => simp [numLoop] at h
          | succ fuel =>
            rw [numLoop] at h
            change Decodes trie (d.drop (bytesOf ig).length) _ _ at hdec
            generalize hdd2 : d.drop (bytesOf ig).length = d2 at hdec
            have hlen3 : d2.length = token.length - (s.pos + bs.length + (bytesOf ig).length) := by
              rw [← hdd2, ← hdrop2, List.length_drop]
            cases hdec with
            | cons ne' look' val' rest' =>
              rename_i bs' d' v'
              have := List.length_pos_iff.mpr ne'
              rw [List.length_append] at hlen3
              dsimp only at h
              rw [if_pos (by omega)] at h
              split at h
              · cases h
              · cases h
              rename_i s'' hs''
              have hl' := lookupAt_eq (T := trie) hpos2
              rw [hdrop2, hdd2, look'] at hl'
              rcases numStep_some (s := ⟨s.pos + bs.length + (bytesOf ig).length, v, s.current, s.lastExIgnore⟩)
                (by simp; omega) ((num_excl val).2 (numMask_of (.inr h1))) hl' hs'' with ⟨rfl, h5⟩ | ⟨_, h6, _⟩
              · refine numT_of_loop fuel _ r t (by simp; omega) (by simp; omega) ?_ val' ?_ h
                · rw [← List.drop_drop, hdrop2, hdd2]
                  simpa using rest'
                · rw [is_or, hy, Bool.true_or]
              · rw [((num_excl val).1 h1).1] at h6
                cases h6
        · exact absurd h3.symm h4

/-- One pass accepts a digit or connector. -/
theorem numStep_next {token : Bytes} {s : NumState} {v w : Nat} (h0 : 0 < s.pos) (hI : is s.current _Ignore = false)
    (hl : trie.lookupAt token s.pos = .ok (v, w)) (hval : trie.IsValue v)
    (hv : is v (_Numeric ||| _ExtendNumLet) = true)
    (hr : numRule v s.current s.lastExIgnore = true) :
    numStep token s = .ok (some ⟨s.pos + w, v, s.current, s.lastExIgnore⟩) := by
  have hM : is v (_MidNum ||| _MidNumLetQ) = false := by
    rw [Bool.eq_false_iff]
    intro hm
    have := (num_excl hval).1 hm
    rw [is_or, this.1, this.2] at hv
    cases hv
  unfold numStep
  dsimp only
  rw [hI, hl]
  simp only [Bool.not_false, if_true]
  rw [if_neg (by omega)]
  split
  · rfl
  rename_i h1
  split
  · rfl
  rename_i h2
  rw [hM, Bool.false_and, if_neg (by simp)]
  unfold numRest
  dsimp only
  split
  · rfl
  rename_i h3
  split
  · rfl
  rename_i h4
  rw [numRule, Bool.eq_false_iff.mpr h2, Bool.eq_false_iff.mpr h3, Bool.eq_false_iff.mpr h4,
    Bool.eq_false_iff.mpr h1] at hr
  cases hr

/-- Completeness. -/
theorem loop_of_numT {token : Bytes} : ∀ (fuel : Nat) (s : NumState) (l : List (Nat × Bytes)),
    0 < s.pos → s.pos ≤ token.length → Decodes trie (token.drop s.pos) l [] → trie.IsValue s.current →
    is s.current (_Numeric ||| _ExtendNumLet) = true → token.length - s.pos < fuel →
    NumT s.current (l.map (·.1)) → numLoop token fuel s = .ok true
  | 0, s, l, _, _, _, _, _, hf, _ => by omega
  | fuel + 1, s, l, h0, hp, hd, hcv, hc, hfuel, h => by
    have hI := (num_excl hcv).2 (numMask_of (.inl hc))
    rw [numLoop]
    generalize hdd : token.drop s.pos = d at hd
    have hlen : d.length = token.length - s.pos := by rw [← hdd]; simp
    cases hd with
    | nil =>
      rw [List.length_nil] at hlen
      rw [if_neg (by omega)]
    | tail ne look => exact absurd rfl ne
    | cons ne look val rest =>
      rename_i bs d v l
      have := List.length_pos_iff.mpr ne
      rw [List.length_append] at hlen
      rw [if_pos (by omega)]
      have hl := lookupAt_eq (T := trie) hp
      rw [hdd, look] at hl
      have hdrop : token.drop (s.pos + bs.length) = d := by rw [← List.drop_drop, hdd]; simp
      rw [List.map_cons] at h
      generalize hr : l.map (·.1) = r at h
      cases h with
      | next hv hn =>
        have hrule : numRule v s.current s.lastExIgnore = true := by
          rw [numRule]
          simp only [is_or, Bool.or_eq_true, Bool.and_eq_true] at hv hc ⊢
          grind
        rw [numStep_next h0 hI hl val hv hrule]
        exact loop_of_numT fuel ⟨_, _, _, _⟩ l (by simp; omega) (by simp; omega)
          (by simpa only [hdrop] using rest) val hv (by simp; omega) (hr ▸ hn)
      | separated h2 h1 hig hy hn =>
        rename_i ig dd r
        obtain ⟨ig', l2, rfl, rfl, hr2⟩ := List.map_eq_append_iff.mp hr
        obtain ⟨y, l2, rfl, hyd, rfl⟩ := List.map_eq_cons_iff.mp hr2
        subst hyd
        have hig' : ∀ x ∈ ig', is x.1 _Ignore = true := fun x hx => hig x.1 (List.mem_map.mpr ⟨x, hx, rfl⟩)
        have hval := rest.values
        have hyI : is y.1 _Ignore = false :=
          (num_excl (hval y (by simp)).1).2 (numMask_of (.inl (by rw [is_or, hy, Bool.true_or])))
        have htake : (ig' ++ y :: l2).takeWhile (fun x => is x.1 _Ignore) = ig' := by
          rw [List.takeWhile_append_of_pos hig', List.takeWhile_cons, if_neg (by simp [hyI]), List.append_nil]
        have hfound : foundIn _Ignore _Numeric (ig' ++ y :: l2) = true := by
          rw [foundIn, List.dropWhile_append_of_pos hig', List.dropWhile_cons, if_neg (by simp [hyI])]
          exact hy
        have hvN := (num_excl val).1 h1
        have hstep : numStep token s
            = .ok (some ⟨s.pos + bs.length + (bytesOf ig').length, v, s.current, s.lastExIgnore⟩) := by
          unfold numStep
          dsimp only
          rw [hI, hl]
          simp only [Bool.not_false, if_true]
          rw [if_neg (by omega), hvN.1, Bool.and_false, if_neg (by simp), Bool.false_and, Bool.false_and,
            if_neg (by simp), h1, h2, if_pos (by rfl), subsequentFrom_decodes _ _ (by omega) (by rw [hdrop]; exact rest),
            if_pos hfound, htake]
          simp only [Int.toNat_natCast]
          rw [if_pos]
          simp [notfound]
        rw [hstep]
        dsimp only
        have hdec := rest.drop ig'.length (by simp)
        rw [List.take_left, List.drop_left] at hdec
        have hlen2 := congrArg List.length rest.flatten
        simp only [List.flatMap_append, List.flatMap_cons, List.length_append, List.length_nil] at hlen2
        have hpos2 : s.pos + bs.length + (bytesOf ig').length ≤ token.length := by
          simp only [bytesOf]; omega
        have hdrop2 : token.drop (s.pos + bs.length + (bytesOf ig').length) = d.drop (bytesOf ig').length := by
          rw [← List.drop_drop, hdrop]
        cases fuel with
        | zero => omega
        | succ fuel =>
          rw [numLoop]
          change Decodes trie (d.drop (bytesOf ig').length) _ _ at hdec
          generalize hdd2 : d.drop (bytesOf ig').length = d2 at hdec
          have hlen3 : d2.length = token.length - (s.pos + bs.length + (bytesOf ig').length) := by
            rw [← hdd2, ← hdrop2, List.length_drop]
          cases hdec with
          | cons ne' look' val' rest' =>
            rename_i bs' d' v'
            have := List.length_pos_iff.mpr ne'
            rw [List.length_append] at hlen3
            dsimp only
            rw [if_pos (by omega)]
            have hl' := lookupAt_eq (T := trie) hpos2
            rw [hdrop2, hdd2, look'] at hl'
            have hrule : numRule v' v s.current = true := by
              rw [numRule, h1, h2]
              dsimp only at hy
              rw [hy]
              simp
            have hv' : is v' (_Numeric ||| _ExtendNumLet) = true := by
              rw [is_or]
              dsimp only at hy
              rw [hy, Bool.true_or]
            rw [numStep_next (s := ⟨s.pos + bs.length + (bytesOf ig').length, v, s.current, s.lastExIgnore⟩)
              (by simp; omega) ((num_excl val).2 (numMask_of (.inr h1))) hl' val' hv' hrule]
            refine loop_of_numT fuel ⟨_, _, _, _⟩ l2 (by simp; omega) (by simp; omega) ?_ val' hv' (by simp; omega) hn
            dsimp only
            rw [← List.drop_drop, hdrop2, hdd2]
            simpa using rest'

/-- Exactly what `BleveNumeric` accepts. -/
theorem bleveNumeric_iff {token : Bytes} {x : Nat × Bytes} {l : List (Nat × Bytes)} (hd : Decodes trie token (x :: l) []) :
    bleveNumeric token = .ok true ↔ is x.1 (_Numeric ||| _ExtendNumLet) = true ∧ NumT x.1 (l.map (·.1)) := by
  unfold bleveNumeric
  cases hd with
  | cons ne look val rest =>
    rename_i bs d v
    have := List.length_pos_iff.mpr ne
    rw [numLoop, if_pos (by simp; omega)]
    unfold numStep
    dsimp only
    rw [lookupAt_eq (Nat.zero_le _), List.drop_zero, look]
    simp only [if_true]
    by_cases hv : is v (_Numeric ||| _ExtendNumLet) = true
    · rw [if_pos hv]
      dsimp only
      constructor
      · intro h
        exact ⟨hv, numT_of_loop _ ⟨_, _, _, _⟩ l [] (by simp; omega) (by simp) (by simpa using rest) val hv h⟩
      · intro h
        exact loop_of_numT _ ⟨_, _, _, _⟩ l (by simp; omega) (by simp) (by simpa using rest) val hv (by simp; omega) h.2
    · rw [if_neg hv]
      simp [hv]

end Uax29.Words
