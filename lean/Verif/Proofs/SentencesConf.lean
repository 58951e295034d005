import Verif.Spec.SentenceClasses
import Verif.Proofs.SentenceMachine
import Verif.Proofs.Greedy
import Verif.Proofs.SeekGrow
import Verif.Proofs.Splits
/-! # sentences: the split function follows the sentence rules -/
namespace Uax29.Sentences
open Spec

/-! ## what is in the table -/

/-- All entries in the table. -/
def okValue (v : Nat) : Bool := (SB.Other :: allSB).any fun c => v == sbBit c

theorem okValue_of {v : Nat} (h : trie.IsValue v) : okValue v = true :=
  Trie.IsValue.of_all (p := okValue) (by decide +kernel) h

theorem sclass_sbBit (c : SB) : sclass (sbBit c) = c := by cases c <;> decide +kernel

theorem value_bit {v : Nat} (h : trie.IsValue v) : v = sbBit (sclass v) := by
  have := okValue_of h
  simp only [okValue, List.any_eq_true, beq_iff_eq] at this
  obtain ⟨c, _, rfl⟩ := this
  rw [sclass_sbBit]

theorem is_bit (p : Nat) (f : SB → Bool) (h : ∀ c ∈ SB.Other :: allSB, is (sbBit c) p = f c) (c : SB) :
    is (sbBit c) p = f c := h c (by cases c <;> decide)

theorem bSp (c : SB) : is (sbBit c) _Sp = decide (c = .Sp) := is_bit _ (fun c => decide (c = .Sp)) (by decide +kernel) c
theorem bClose (c : SB) : is (sbBit c) _Close = decide (c = .Close) :=
  is_bit _ (fun c => decide (c = .Close)) (by decide +kernel) c
theorem bPara (c : SB) : is (sbBit c) _ParaSep = c.paraSep := is_bit _ SB.paraSep (by decide +kernel) c
theorem bIgn (c : SB) : is (sbBit c) _Ignore = c.ignorable := is_bit _ SB.ignorable (by decide +kernel) c
theorem bExt (c : SB) : is (sbBit c) (_Extend ||| _Format) = c.ignorable := is_bit _ SB.ignorable (by decide +kernel) c
theorem bLF (c : SB) : is (sbBit c) _LF = decide (c = .LF) := is_bit _ (fun c => decide (c = .LF)) (by decide +kernel) c
theorem bCR (c : SB) : is (sbBit c) _CR = decide (c = .CR) := is_bit _ (fun c => decide (c = .CR)) (by decide +kernel) c
theorem bNum (c : SB) : is (sbBit c) _Numeric = decide (c = .Numeric) :=
  is_bit _ (fun c => decide (c = .Numeric)) (by decide +kernel) c
theorem bUpper (c : SB) : is (sbBit c) _Upper = decide (c = .Upper) :=
  is_bit _ (fun c => decide (c = .Upper)) (by decide +kernel) c
theorem bLower (c : SB) : is (sbBit c) _Lower = decide (c = .Lower) :=
  is_bit _ (fun c => decide (c = .Lower)) (by decide +kernel) c
theorem bATerm (c : SB) : is (sbBit c) _ATerm = decide (c = .ATerm) :=
  is_bit _ (fun c => decide (c = .ATerm)) (by decide +kernel) c
theorem bSATerm (c : SB) : is (sbBit c) _SATerm = c.saTerm := is_bit _ SB.saTerm (by decide +kernel) c
theorem bCase (c : SB) : is (sbBit c) (_Upper ||| _Lower) = (c = .Upper || c = .Lower) :=
  is_bit _ (fun c => (c = .Upper || c = .Lower)) (by decide +kernel) c
theorem bStops (c : SB) : is (sbBit c) (_OLetter ||| _Upper ||| _Lower ||| _ParaSep ||| _SATerm) = c.stops :=
  is_bit _ SB.stops (by decide +kernel) c
theorem b8a (c : SB) : is (sbBit c) (_SContinue ||| _SATerm) = (c = .SContinue || c.saTerm) :=
  is_bit _ (fun c => (c = .SContinue || c.saTerm)) (by decide +kernel) c
theorem b9 (c : SB) : is (sbBit c) (_Close ||| _Sp ||| _ParaSep) = (c = .Close || c = .Sp || c.paraSep) :=
  is_bit _ (fun c => (c = .Close || c = .Sp || c.paraSep)) (by decide +kernel) c
theorem b10 (c : SB) : is (sbBit c) (_Sp ||| _ParaSep) = (c = .Sp || c.paraSep) :=
  is_bit _ (fun c => (c = .Sp || c.paraSep)) (by decide +kernel) c

theorem bit_zero {c d : SB} : sbBit c ||| sbBit d = 0 ↔ c = .Other ∧ d = .Other := by
  cases c <;> cases d <;> decide

/-! ## the state in terms of property values -/

/-- The state, with property values in place of bits. -/
structure AState where
  pos : Nat
  current : SB
  ex : SB
  exex : SB
  sp : SB
  close : SB
  spClose : SB
  para : SB

/-- The state of the code. -/
def AState.toState (a : AState) : State :=
  { pos := a.pos, current := sbBit a.current, lastExIgnore := sbBit a.ex, lastLastExIgnore := sbBit a.exex,
    lastExIgnoreSp := sbBit a.sp, lastExIgnoreClose := sbBit a.close, lastExIgnoreSpClose := sbBit a.spClose,
    lastExIgnoreParaSepSpClose := sbBit a.para }

/-- `remember` in terms of property values. -/
def AState.remember (a : AState) : AState :=
  let exex := if !a.current.ignorable then a.ex else a.exex
  let ex := if !a.current.ignorable then a.current else a.ex
  let sp := if !decide (ex = .Sp) then ex else a.sp
  let close := if !decide (ex = .Close) then ex else a.close
  let spClose := if !decide (sp = .Close) then sp else a.spClose
  let para := if !spClose.paraSep then spClose else a.para
  { a with exex, ex, sp, close, spClose, para }

theorem remember_toState (a : AState) : Sentences.remember a.toState = a.remember.toState := by
  simp only [Sentences.remember, AState.toState, AState.remember, bIgn, ← apply_ite sbBit, bSp, bClose, bPara]

/-- A test that ignored characters and the start of the text do not pass. -/
def SSolid (f : SB → Bool) : Prop := f .Other = false ∧ f .Extend = false ∧ f .Format = false

/-- What the state knows about the characters before, nearest first. -/
structure ACtx (a : AState) (cl : List SB) : Prop where
  cur : cl.head? = some a.current
  ex : ∀ f, SSolid f → (sunits cl).head?.any f = f a.remember.ex
  exex : a.remember.ex = .ATerm → (sunits cl).tail.head?.any (fun x => x = .Upper || x = .Lower)
    = (a.remember.exex = .Upper || a.remember.exex = .Lower)
  close : endsClose (·.saTerm) (sunits cl) = a.remember.close.saTerm
  aterm : endsCloseSp (· = .ATerm) (sunits cl) = decide (a.remember.spClose = .ATerm)
  saterm : endsCloseSp (·.saTerm) (sunits cl) = a.remember.spClose.saTerm
  nl : a.current.paraSep = true ∨ ∀ x ∈ cl, x.paraSep = false

/-- After a lower case letter everything before is forgotten. -/
theorem ACtx.lower {a : AState} {cl : List SB} (h : a.current = .Lower) (hp : ∀ x ∈ cl, x.paraSep = false) :
    ACtx a (.Lower :: cl) := by
  have h1 : a.remember.ex = .Lower := by simp [AState.remember, h, SB.ignorable]
  have h2 : a.remember.close = .Lower := by simp [AState.remember, h, SB.ignorable]
  have h3 : a.remember.spClose = .Lower := by simp [AState.remember, h, SB.ignorable]
  have hu : sunits (.Lower :: cl) = .Lower :: sunits cl := sunits_solid (by decide) cl
  refine ⟨by simp [h], ?_, ?_, ?_, ?_, ?_, .inr ?_⟩
  · intro f _; simp [hu, h1]
  · rw [h1]; intro h; cases h
  · rw [hu, h2, endsClose_other _ (by decide)]
  · rw [hu, h3, endsCloseSp_not _ (by decide), endsClose_other _ (by decide)]
  · rw [hu, h3, endsCloseSp_not _ (by decide), endsClose_other _ (by decide)]
  · intro x hx
    rcases List.mem_cons.mp hx with rfl | hx
    · rfl
    · exact hp x hx

/-- The state after a character was joined. -/
theorem ACtx.next {a : AState} {cl : List SB} (h : ACtx a cl) {b : SB} {p : Nat}
    (hnl : b.paraSep = true ∨ ∀ x ∈ cl, x.paraSep = false)
    (hcl : a.current.paraSep = true → b.ignorable = false)
    (hclose : b = .Close → endsClose (·.saTerm) (sunits cl) = true ∨ endsCloseSp (·.saTerm) (sunits cl) = false) :
    ACtx { a.remember with pos := p, current := b } (b :: cl) := by
  generalize ha' : ({ a.remember with pos := p, current := b } : AState) = a'
  obtain ⟨c0, cl', rfl⟩ : ∃ c l, cl = c :: l := by
    cases cl with
    | nil => have := h.cur; simp at this
    | cons c l => exact ⟨c, l, rfl⟩
  have hc0 : c0 = a.current := by simpa using h.cur
  have hpara : b.paraSep = true ∨ ∀ x ∈ b :: c0 :: cl', x.paraSep = false := by
    cases hb : b.paraSep
    · right
      intro x hx
      rcases List.mem_cons.mp hx with rfl | hx
      · exact hb
      · rcases hnl with h | h
        · rw [hb] at h; cases h
        · exact h x hx
    · exact .inl rfl
  have hcur : a'.current = b := by rw [← ha']
  cases hi : b.ignorable
  · -- a unit of its own
    have hu := sunits_solid hi (c0 :: cl')
    have e1 : a'.remember.ex = b := by subst ha'; simp [AState.remember, hi]
    have e2 : a'.remember.exex = a.remember.ex := by subst ha'; simp [AState.remember, hi]
    have e3 : a'.remember.close = if b = .Close then a.remember.close else b := by
      subst ha'
      simp only [AState.remember, hi, Bool.not_false, if_true]
      split <;> simp_all
    have e4 : a'.remember.spClose = if b = .Close ∨ b = .Sp then a.remember.spClose else b := by
      subst ha'
      by_cases h1 : b = .Sp
      · subst h1
        simp only [AState.remember, hi, Bool.not_false, if_true]
        split <;> simp_all
      · by_cases h2 : b = .Close
        · subst h2
          simp only [AState.remember, hi, Bool.not_false, if_true]
          simp
        · simp only [AState.remember, hi, Bool.not_false, if_true]
          simp [h1, h2]
    have hends : ∀ X : SB → Bool, endsCloseSp X (sunits (c0 :: cl')) = X a.remember.spClose →
        (b = .Close → endsClose X (sunits (c0 :: cl')) = endsCloseSp X (sunits (c0 :: cl'))) →
        endsCloseSp X (b :: sunits (c0 :: cl')) = X a'.remember.spClose := by
      intro X h1 h2
      rw [e4]
      by_cases k1 : b = .Sp
      · subst k1; rw [endsCloseSp_sp, h1]; simp
      · rw [endsCloseSp_not _ k1]
        by_cases k2 : b = .Close
        · subst k2; rw [endsClose_close, h2 rfl, h1]; simp
        · rw [endsClose_other _ k2]; simp [k1, k2]
    have hcloseX : ∀ X : SB → Bool, (∀ x, X x = true → x.saTerm = true) → b = .Close →
        endsClose X (sunits (c0 :: cl')) = endsCloseSp X (sunits (c0 :: cl')) := by
      intro X hX hb
      rcases hclose hb with h1 | h1
      · exact (endsClose_sp (by decide) h1 X).symm
      · have h2 : endsCloseSp X (sunits (c0 :: cl')) = false := by
          rw [Bool.eq_false_iff]; intro h
          unfold endsCloseSp at h h1
          rw [endsClose_mono hX h] at h1; cases h1
        rw [h2, Bool.eq_false_iff]
        intro h3
        have h4 := endsClose_mono hX h3
        rw [endsClose_sp (by decide) h4] at h2
        rw [h2] at h3; cases h3
    refine ⟨by simp [hcur], ?_, ?_, ?_, ?_, ?_, ?_⟩
    · intro f _; rw [hu, e1]; simp
    · rw [e1, e2, hu]
      intro _
      rw [List.tail_cons]
      exact h.ex (fun x => x = .Upper || x = .Lower) ⟨rfl, rfl, rfl⟩
    · rw [hu, e3]
      by_cases hb : b = .Close
      · subst hb; rw [endsClose_close, h.close]; simp
      · rw [endsClose_other _ hb]; simp [hb]
    · rw [hu]
      exact hends (fun x => decide (x = .ATerm)) h.aterm (hcloseX _ ateTerm_saTerm)
    · rw [hu]
      exact hends (·.saTerm) h.saterm (hcloseX _ fun _ h => h)
    · rw [hcur]; exact hpara
  · -- part of the unit before
    have hap : c0.paraSep = false := by
      rw [Bool.eq_false_iff]; intro h'
      rw [hc0] at h'
      rw [hcl h'] at hi; cases hi
    have hu := sunits_ign hi hap cl'
    have hr : ∀ (x : SB), a.remember.ex = x → a'.remember.ex = x := by
      intro x hx; subst ha'; simp [AState.remember, hi, ← hx]
    have e1 : a'.remember.ex = a.remember.ex := hr _ rfl
    have e2 : a'.remember.exex = a.remember.exex := by subst ha'; simp [AState.remember, hi]
    have e3 : a'.remember.close = a.remember.close := by
      subst ha'
      simp only [AState.remember, hi, Bool.not_true, Bool.false_eq_true, if_false]
      split <;> simp_all
    have e4 : a'.remember.spClose = a.remember.spClose := by
      subst ha'
      simp only [AState.remember, hi, Bool.not_true, Bool.false_eq_true, if_false]
      generalize (if (!a.current.ignorable) = true then a.current else a.ex) = x
      by_cases k1 : x = .Sp
      · subst k1
        simp only [decide_true, Bool.not_true, Bool.false_eq_true, if_false]
        split <;> simp_all
      · simp only [k1, decide_false, Bool.not_false, if_true]
        split <;> simp_all
    refine ⟨by simp [hcur], ?_, ?_, ?_, ?_, ?_, ?_⟩
    · intro f hf; rw [hu, e1]; exact h.ex f hf
    · rw [e1, e2, hu]; exact h.exex
    · rw [hu, e3]; exact h.close
    · rw [hu, e4]; exact h.aterm
    · rw [hu, e4]; exact h.saterm
    · rw [hcur]; exact hpara

/-! ## the scan of SB8 -/

theorem dropWhile_all {α : Type} {p : α → Bool} : ∀ {l : List α}, l.all p = true → l.dropWhile p = []
  | [], _ => rfl
  | x :: l, h => by
    simp only [List.all_cons, Bool.and_eq_true] at h
    rw [List.dropWhile_cons, if_pos h.1, dropWhile_all h.2]

theorem scan8_decodes {data t : Bytes} : ∀ (l : List (Nat × Bytes)) (fuel p : Nat), p ≤ data.length →
    Decodes trie (data.drop p) l t → l.length < fuel →
    scan8 data true fuel p = if (!t.isEmpty && l.all fun x => !(sclass x.1).stops) then .breakMain
      else .stop (p + (bytesOf (l.takeWhile fun x => !(sclass x.1).stops)).length) := by
  intro l
  induction l with
  | nil =>
    intro fuel p hp hdec hf
    obtain ⟨fuel, rfl⟩ : ∃ k, fuel = k + 1 := ⟨fuel - 1, by simp at hf; omega⟩
    simp only [scan8]
    generalize hdd : data.drop p = dd at hdec
    cases hdec with
    | nil =>
      have : ¬ p < data.length := by simp at hdd; omega
      rw [if_neg this]
      simp [bytesOf]
    | tail ne look =>
      have : p < data.length := by
        rcases Nat.lt_or_ge p data.length with h | h
        · exact h
        · rw [List.drop_of_length_le h] at hdd; exact absurd hdd.symm ne
      rw [← hdd, ← lookupAt_eq hp] at look
      rw [if_pos this]
      simp only [look]
      simp [ne]
  | cons x l ih =>
    intro fuel p hp hdec hf
    obtain ⟨fuel, rfl⟩ : ∃ k, fuel = k + 1 := ⟨fuel - 1, by simp at hf; omega⟩
    simp only [scan8]
    generalize hdd : data.drop p = dd at hdec
    cases hdec with
    | @cons bs d' _ v _ ne look val rest =>
      have hlt : p < data.length := by
        rcases Nat.lt_or_ge p data.length with h | h
        · exact h
        · rw [List.drop_of_length_le h] at hdd; simp at hdd; exact absurd hdd.1 ne
      rw [← hdd, ← lookupAt_eq hp] at look
      have hbs : bs.length ≠ 0 := by simpa using ne
      have hlen : data.length - p = bs.length + d'.length := by
        have := congrArg List.length hdd
        simpa using this
      rw [if_pos hlt]
      simp only [look, if_neg hbs]
      have hst : is v (_OLetter ||| _Upper ||| _Lower ||| _ParaSep ||| _SATerm) = (sclass v).stops := by
        have h1 := value_bit val
        have h2 := bStops (sclass v)
        rw [← h1] at h2
        exact h2
      rw [hst]
      cases hs : (sclass v).stops
      · rw [if_neg (by simp)]
        have hdec' : Decodes trie (data.drop (p + bs.length)) l t := by
          rw [← List.drop_drop, hdd, List.drop_left]; exact rest
        rw [ih fuel (p + bs.length) (by omega) hdec' (by simp at hf; omega)]
        simp only [List.all_cons, hs, Bool.not_false, Bool.true_and, List.takeWhile_cons, if_true, bytesOf_cons,
          List.length_append, Nat.add_assoc]
      · rw [if_pos rfl]
        simp [hs, bytesOf]

/-- The rest of the rules in terms of property values. -/
def restA (p : Nat) (next : AState) : Step State :=
  let b := next.current
  if (b = .SContinue || b.saTerm) && next.spClose.saTerm then .cont next.toState
  else if (b = .Close || b = .Sp || b.paraSep) && next.close.saTerm then .cont next.toState
  else if (b = .Sp || b.paraSep) && next.spClose.saTerm then .cont next.toState
  else if next.ex.saTerm || (next.ex = .Close && next.close.saTerm) || (next.ex = .Sp && next.spClose.saTerm)
      || (next.ex.paraSep && next.para.saTerm) then .brk p
  else .cont next.toState

theorem stepRest_eq (a next : AState) : stepRest a.toState next.toState = restA a.pos next := by
  simp only [stepRest, AState.toState, restA, b8a, b9, b10, bSATerm, bClose, bSp, bPara]

/-- The rules in terms of property values: `ahead` and `cut` say how the scan of SB8 ends, `p8` where. -/
def rulesA (ahead cut : Bool) (p8 n : Nat) (a next : AState) : Step State :=
  let b := next.current
  if b = .Other ∧ a.current = .Other then .cont next.toState
  else if b = .LF && a.current = .CR then .cont next.toState
  else if a.current.paraSep then .brk a.pos
  else if b.ignorable then .cont next.toState
  else if b = .Numeric && next.ex = .ATerm then .cont next.toState
  else if b = .Upper && next.ex = .ATerm && (next.exex = .Upper || next.exex = .Lower) then .cont next.toState
  else if next.spClose = .ATerm then
    if ahead then .cont { next with pos := p8 }.toState
    else if cut then .brk n
    else restA a.pos next
  else restA a.pos next

theorem takeWhile_head_ign {l : List (Nat × Bytes)} (hv : ∀ x ∈ l, trie.IsValue x.1) :
    (l.dropWhile fun x => !(sclass x.1).stops).takeWhile (fun x => is x.1 _Ignore) = []
    ∧ foundIn _Ignore _Lower (l.dropWhile fun x => !(sclass x.1).stops) = lowerAhead (l.map fun x => sclass x.1) := by
  have hmap : ((l.map fun x => sclass x.1).dropWhile (!·.stops)).head?
      = ((l.dropWhile fun x => !(sclass x.1).stops).head?).map fun x => sclass x.1 := by
    rw [List.dropWhile_map, List.head?_map]; rfl
  unfold lowerAhead
  rw [hmap]
  cases hd : l.dropWhile fun x => !(sclass x.1).stops with
  | nil => simp [foundIn]
  | cons y r =>
    have hy : (sclass y.1).stops = true := by
      have := List.head_dropWhile_not (fun x : Nat × Bytes => !(sclass x.1).stops) (l := l) (by rw [hd]; simp)
      simp only [hd, List.head_cons] at this
      simpa using this
    have hyl : y ∈ l := (List.dropWhile_suffix (fun x : Nat × Bytes => !(sclass x.1).stops) (l := l)).mem
      (by rw [hd]; exact List.mem_cons_self)
    have hbit := value_bit (hv y hyl)
    generalize hc : sclass y.1 = c at *
    have hig : is y.1 _Ignore = false := by
      rw [hbit, bIgn]
      cases c <;> first | rfl | (exfalso; revert hy; decide)
    have hlow : is y.1 _Lower = decide (c = .Lower) := by rw [hbit, bLower]
    simp [foundIn, hig, hlow, hc]

theorem rules_classes {data t : Bytes} {a next : AState} {L : List (Nat × Bytes)} (hp : a.pos ≤ data.length)
    (hdec : Decodes trie (data.drop a.pos) L t) :
    rules data true a.toState next.toState
      = rulesA (lowerAhead (L.map fun x => sclass x.1)) (!t.isEmpty && L.all fun x => !(sclass x.1).stops)
          (a.pos + (bytesOf (L.takeWhile fun x => !(sclass x.1).stops)).length) data.length a next := by
  unfold rules rulesA
  dsimp only
  rw [stepRest_eq]
  have e1 : next.toState.current = sbBit next.current := rfl
  have e2 : a.toState.current = sbBit a.current := rfl
  have e3 : next.toState.lastExIgnore = sbBit next.ex := rfl
  have e4 : next.toState.lastLastExIgnore = sbBit next.exex := rfl
  have e5 : next.toState.lastExIgnoreSpClose = sbBit next.spClose := rfl
  have e6 : a.toState.pos = a.pos := rfl
  simp only [e1, e2, e3, e4, e5, e6, bit_zero, bLF, bCR, bPara, bExt, bNum, bATerm, bUpper, bCase]
  have hlen : L.length < data.length + 1 := by
    have := hdec.length_le
    rw [List.length_drop] at this; omega
  rw [scan8_decodes L _ _ hp hdec hlen]
  have hvals : ∀ x ∈ L, trie.IsValue x.1 := fun x hx => (hdec.values x hx).1
  obtain ⟨k1, k2⟩ := takeWhile_head_ign hvals
  have hsplit : L = L.takeWhile (fun x => !(sclass x.1).stops) ++ L.dropWhile fun x => !(sclass x.1).stops :=
    (List.takeWhile_append_dropWhile).symm
  by_cases hcut : (!t.isEmpty && L.all fun x => !(sclass x.1).stops) = true
  · rw [if_pos hcut]
    have hno : lowerAhead (L.map fun x => sclass x.1) = false := by
      simp only [Bool.and_eq_true] at hcut
      rw [← k2, dropWhile_all hcut.2]
      rfl
    simp only [hno, hcut]
    simp
  · rw [if_neg hcut]
    have hdec2 : Decodes trie (data.drop (a.pos + (bytesOf (L.takeWhile fun x => !(sclass x.1).stops)).length))
        (L.dropWhile fun x => !(sclass x.1).stops) t := by
      have := hdec.drop (L.takeWhile fun x => !(sclass x.1).stops).length (List.takeWhile_prefix _).length_le
      rw [List.drop_drop] at this
      have h1 : L.take (L.takeWhile fun x => !(sclass x.1).stops).length = L.takeWhile fun x => !(sclass x.1).stops := by
        exact (List.prefix_iff_eq_take.mp (List.takeWhile_prefix _)).symm
      have h2 : L.drop (L.takeWhile fun x => !(sclass x.1).stops).length = L.dropWhile fun x => !(sclass x.1).stops := by
        conv => lhs; arg 2; rw [hsplit]
        rw [List.drop_left]
      rw [h1, h2] at this
      exact this
    have hple : a.pos + (bytesOf (L.takeWhile fun x => !(sclass x.1).stops)).length ≤ data.length := by
      have h1 := congrArg List.length hdec.flatten
      rw [hsplit] at h1
      simp only [List.flatMap_append, List.length_append, List.length_drop] at h1
      have h2 : (List.flatMap (fun x => x.2) (L.takeWhile fun x => !(sclass x.1).stops)).length
        = (bytesOf (L.takeWhile fun x => !(sclass x.1).stops)).length := rfl
      omega
    simp only []
    rw [subsequentFrom_decodes _ _ hple hdec2, k1, k2]
    simp only [Bool.not_eq_true] at hcut
    simp only [hcut]
    cases lowerAhead (L.map fun x => sclass x.1)
    · simp
    · have : ((([] : List (Nat × Bytes)).flatMap (·.2)).length : Int) ≠ notfound := by decide
      simp [bytesOf, notfound, AState.toState]

end Uax29.Sentences
