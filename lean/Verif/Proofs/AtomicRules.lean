import Verif.Proofs.Atomic
import Verif.Proofs.GraphemeConf
import Verif.Proofs.WordsConf
import Verif.Proofs.PhrasesConf
import Verif.Proofs.SentencesFast
/-! # Tokens are atomic: the rules of the packages -/
namespace Uax29
open Spec

theorem Graphemes.local_rules : Local trie.IsValue (fun _ => J) := by
  intro e left right m hne _ _ _ hm hk _
  dsimp only at hk ⊢
  have h := grow_join (J := J) (right := right) (left := left) (i := 0) (by omega)
  cases right with
  | nil => simp [grow] at hk; omega
  | cons b r =>
    obtain ⟨m, rfl⟩ : ∃ k, m = k + 1 := ⟨m - 1, by omega⟩
    simp only [List.take_zero, List.reverse_nil, List.nil_append, List.drop_zero, List.take_succ_cons] at h ⊢
    obtain ⟨a, l, rfl⟩ := List.exists_cons_of_ne_nil hne
    exact h

theorem dropWhile_split {α : Type} (p : α → Bool) (l : List α) :
    (∀ x ∈ l, p x = true) ∨ ∃ ig y r, l = ig ++ y :: r ∧ (∀ x ∈ ig, p x = true) ∧ p y = false := by
  induction l with
  | nil => left; simp
  | cons a l ih =>
    cases ha : p a
    · exact .inr ⟨[], a, l, rfl, by simp, ha⟩
    · rcases ih with h | ⟨ig, y, r, h1, h2, h3⟩
      · left; intro x hx
        rcases List.mem_cons.mp hx with rfl | hx
        · exact ha
        · exact h x hx
      · refine .inr ⟨a :: ig, y, r, by simp [h1], ?_, h3⟩
        intro x hx
        rcases List.mem_cons.mp hx with rfl | hx
        · exact ha
        · exact h2 x hx

theorem dropWhile_prefix {α : Type} {p : α → Bool} : ∀ {ig : List α} {r : List α}, (∀ x ∈ ig, p x = true) →
    (ig ++ r).dropWhile p = r.dropWhile p
  | [], _, _ => rfl
  | a :: ig, r, h => by
    rw [List.cons_append, List.dropWhile_cons, if_pos (h a List.mem_cons_self)]
    exact dropWhile_prefix fun x hx => h x (List.mem_cons_of_mem _ hx)

/-- Only the look-ahead rules see what comes next. -/
theorem unitJoins_next {ph : Bool} {u : List WSet} {b : WSet} {n n' : Option WSet}
    (h : unitJoins ph u b n = true)
    (hn : ¬ ((u.head?.any (·.ahLetter ph) = true ∧ b.midLetter = true ∧ n.any (·.ahLetter ph) = true)
      ∨ (u.head?.any (· .HebrewLetter) = true ∧ b .DoubleQuote = true ∧ n.any (· .HebrewLetter) = true)
      ∨ (u.head?.any (· .Numeric) = true ∧ b.midNum = true ∧ n.any (· .Numeric) = true))) :
    unitJoins ph u b n' = true := by
  have h1 : (u.head?.any (·.ahLetter ph) && b.midLetter && n.any (·.ahLetter ph)) = false := by
    rw [Bool.eq_false_iff]; intro h; simp only [Bool.and_eq_true] at h; exact hn (.inl ⟨h.1.1, h.1.2, h.2⟩)
  have h2 : (u.head?.any (· .HebrewLetter) && b .DoubleQuote && n.any (· .HebrewLetter)) = false := by
    rw [Bool.eq_false_iff]; intro h; simp only [Bool.and_eq_true] at h; exact hn (.inr (.inl ⟨h.1.1, h.1.2, h.2⟩))
  have h3 : (u.head?.any (· .Numeric) && b.midNum && n.any (· .Numeric)) = false := by
    rw [Bool.eq_false_iff]; intro h; simp only [Bool.and_eq_true] at h; exact hn (.inr (.inr ⟨h.1.1, h.1.2, h.2⟩))
  unfold unitJoins at h ⊢
  dsimp only at h ⊢
  rw [h1, h2, h3] at h
  simp only [Bool.or_false] at h
  simp only [Bool.or_eq_true] at h ⊢
  rcases h with (((((((h | h) | h) | h) | h) | h) | h) | h) | h <;> simp only [h, true_or, or_true]

theorem joins_local {ph : Bool} {ws : Nat → WSet} {P : Nat → Prop} (h0 : ws 0 = fun _ => false)
    (hok : ∀ x, P x → OkSet (ws x)) :
    Local P (fun _ l r => joins ph (l.map ws) (r.map ws)) := by
  intro e left right m hne hl hr hk hm hmk hz
  dsimp only at *
  generalize hJ : (fun l r : List Nat => joins ph (l.map ws) (r.map ws)) = J at *
  have hJ' : ∀ l r, J l r = joins ph (l.map ws) (r.map ws) := by intro l r; rw [← hJ]
  obtain ⟨a, l, rfl⟩ := List.exists_cons_of_ne_nil hne
  cases right with
  | nil => simp [grow] at hmk; omega
  | cons b r =>
    obtain ⟨m, rfl⟩ : ∃ k, m = k + 1 := ⟨m - 1, by omega⟩
    have h := grow_join (J := J) (right := b :: r) (left := a :: l) (i := 0) (by omega)
    simp only [List.take_zero, List.reverse_nil, List.nil_append, List.drop_zero] at h
    have hj := h
    rw [hJ'] at h
    rw [List.take_succ_cons]
    simp only [List.map_cons] at h ⊢
    rw [joins] at h ⊢
    split at h
    · rename_i hc; rw [if_pos hc]
    rename_i hc; rw [if_neg hc]
    split at h
    · cases h
    rename_i hnl; rw [if_neg hnl]
    simp only [Bool.or_eq_true, not_or, Bool.not_eq_true] at hnl
    split at h
    · rename_i hc; rw [if_pos hc]
    rename_i hc; rw [if_neg hc]
    split at h
    · rename_i hc; rw [if_pos hc]
    rename_i hc; rw [if_neg hc]
    split at h
    · rename_i hc; rw [if_pos hc]
    rename_i hign; rw [if_neg hign]
    have hign : (ws b).ignorable = false := by simpa using hign
    -- what follows `b`
    rcases dropWhile_split (fun x => (ws x).ignorable) r with hall | ⟨ig, y, r', hr', hig, hy⟩
    · -- nothing but ignored characters
      have e1 : ∀ r' : List Nat, (∀ x ∈ r', (ws x).ignorable = true) → ((r'.map ws).dropWhile (·.ignorable)) = [] := by
        intro r' h
        have : ∀ x ∈ r'.map ws, x.ignorable = true := by
          intro x hx; obtain ⟨z, hz, rfl⟩ := List.mem_map.mp hx; exact h z hz
        have := dropWhile_prefix (r := []) this
        simpa using this
      rw [e1 _ hall] at h
      rw [e1 _ fun x hx => hall x (List.mem_of_mem_take hx)]
      exact h
    · have en : ((r.map ws).dropWhile (·.ignorable)).head? = some (ws y) := by
        rw [hr', List.map_append, dropWhile_prefix]
        · simp [hy]
        · intro x hx; obtain ⟨z, hz, rfl⟩ := List.mem_map.mp hx; exact hig z hz
      rw [en] at h
      by_cases hin : ig.length < m
      · -- it is still there
        have : (((r.take m).map ws).dropWhile (·.ignorable)).head? = some (ws y) := by
          rw [hr', List.take_append, List.take_of_length_le (by omega), List.map_append, dropWhile_prefix]
          · obtain ⟨k, hk⟩ : ∃ k, m - ig.length = k + 1 := ⟨m - ig.length - 1, by omega⟩
            rw [hk, List.take_succ_cons]
            simp [hy]
          · intro x hx; obtain ⟨z, hz, rfl⟩ := List.mem_map.mp hx; exact hig z hz
        rw [this]
        exact h
      · refine unitJoins_next h ?_
        intro hlook
        -- then all up to `y` is joined
        have hbn := hnl.2
        have hign' : ∀ x ∈ ig, (ws x).ignorable = true ∧ (ws x).newline = false := by
          intro x hx
          have hxp : P x := hr x (by rw [hr']; simp [hx])
          exact ⟨hig x hx, (hok x hxp).ign (hig x hx)⟩
        have hyP : P y := hr y (by rw [hr']; simp)
        have hyl : ((ws y).ahLetter true || ws y .Numeric) = true := by
          rcases hlook with ⟨_, _, h⟩ | ⟨_, _, h⟩ | ⟨_, _, h⟩
          · simp only [Option.any_some, WSet.ahLetter, Bool.or_eq_true, Bool.and_eq_true] at h ⊢
            rcases h with (h | h) | h <;> simp [h]
          · simp only [Option.any_some] at h; simp [WSet.ahLetter, h]
          · simp only [Option.any_some] at h; simp [h]
        have hyn := (hok y hyP).letter hyl
        have hg : ig.length + 1 ≤ grow J (b :: a :: l) r := by
          have := grow_append (J := J) (a := ig ++ [y]) (b := r') (left := b :: a :: l) (by
            intro i hi
            rw [hJ']
            simp only [List.length_append, List.length_cons, List.length_nil] at hi
            by_cases hi' : i < ig.length
            · obtain ⟨z, zs, hz⟩ := List.exists_cons_of_ne_nil (l := ig.drop i) (by simp; omega)
              have hzi := hign' z (List.mem_of_mem_drop (by rw [hz]; exact List.mem_cons_self))
              rw [List.take_append_of_le_length (by omega), List.drop_append_of_le_length (by omega), hz]
              obtain ⟨c, cs, hc⟩ := List.exists_cons_of_ne_nil (l := (ig.take i).reverse ++ b :: a :: l) (by simp)
              have hcn : (ws c).newline = false := by
                have hmem : c = b ∨ c ∈ ig := by
                  by_cases hi0 : i = 0
                  · subst hi0; simp at hc; exact .inl hc.1.symm
                  · have hne : (ig.take i).reverse ≠ [] := by
                      intro h
                      have := congrArg List.length h
                      rw [List.length_reverse, List.length_take, List.length_nil] at this
                      omega
                    obtain ⟨c', cs', hc'⟩ := List.exists_cons_of_ne_nil hne
                    rw [hc'] at hc
                    simp at hc
                    right
                    rw [← hc.1]
                    have : c' ∈ (ig.take i).reverse := by rw [hc']; exact List.mem_cons_self
                    exact List.mem_of_mem_take (List.mem_reverse.mp this)
                rcases hmem with rfl | h
                · exact hbn
                · exact (hign' c h).2
              rw [hc]
              simp only [List.cons_append, List.map_cons]
              exact joins_ignorable ph _ _ hcn hzi.2 hzi.1
            · have : i = ig.length := by omega
              subst this
              rw [List.take_left' rfl, List.drop_left' rfl]
              obtain ⟨c, cs, hc⟩ := List.exists_cons_of_ne_nil (l := ig.reverse ++ b :: a :: l) (by simp)
              have hcn : (ws c).newline = false := by
                cases hig' : ig.reverse with
                | nil => rw [hig'] at hc; simp at hc; rw [← hc.1]; exact hbn
                | cons c' cs' =>
                  rw [hig'] at hc; simp at hc; rw [← hc.1]
                  have : c' ∈ ig.reverse := by rw [hig']; exact List.mem_cons_self
                  exact (hign' c' (List.mem_reverse.mp this)).2
              have hu : units ((c :: cs).map ws) = ws b :: units ((a :: l).map ws) := by
                rw [← hc, List.map_append, List.map_cons, units_ignorable _ ?_ _ _ hbn, units_cons_solid hign]
                intro x hx
                obtain ⟨z, hz, rfl⟩ := List.mem_map.mp hx
                exact hign' z (List.mem_reverse.mp hz)
              rw [hc]
              simp only [List.cons_append, List.nil_append, List.map_cons]
              apply joins_units ph _ _ hcn hyn
              rw [← List.map_cons, hu]
              unfold unitJoins
              simp only [List.tail_cons, List.head?_cons, Option.any_some]
              simp only [Option.any_some] at hlook
              rcases hlook with ⟨h1, h2, h3⟩ | ⟨h1, h2, h3⟩ | ⟨h1, h2, h3⟩ <;> simp [h1, h2, h3])
          rw [hr', show ig ++ y :: r' = ig ++ [y] ++ r' by simp, this]
          simp
        have hk' : grow J (a :: l) (b :: r) = 1 + grow J (b :: a :: l) r := by simp [grow, hj]
        have hz' := hz (by rw [hk']; omega)
        rw [List.getElem?_cons_succ, hr'] at hz'
        by_cases hme : m = ig.length
        · rw [hme, List.getElem?_append_right (by omega)] at hz'
          simp at hz'
          rw [hz', h0] at hyl
          simp [WSet.ahLetter] at hyl
        · rw [List.getElem?_append_left (by omega)] at hz'
          have := hig 0 (List.mem_of_getElem? hz')
          rw [h0] at this
          simp [WSet.ignorable] at this


theorem Words.local_rules : Local trie.IsValue (fun _ => J) :=
  joins_local wset_zero fun _ h =>
    OkSet.of_goodCell (okValue.all (P := fun v => goodCell v = true) (by decide +kernel) (okValue_of h))

theorem Phrases.local_rules : Local trie.IsValue (fun _ => J) :=
  joins_local pset_zero (fun _ h => OkSet.of_goodCell (value_good h))

/-- The right hand side of SB8 can only make a position join. -/
theorem sjoinsIf_mono {a b : Bool} {left right : List SB} (h : sjoinsIf a left right = true) (hab : a = true → b = true) :
    sjoinsIf b left right = true := by
  cases a with
  | true => rw [hab rfl]; exact h
  | false =>
    cases b with
    | false => exact h
    | true =>
      cases left with
      | nil => simp [sjoinsIf] at h
      | cons x left =>
        cases right with
        | nil => simp [sjoinsIf] at h
        | cons y right =>
          simp only [sjoinsIf] at h ⊢
          split
          · rfl
          rename_i h1
          rw [if_neg h1] at h
          split
          · rename_i h2; rw [if_pos h2] at h; exact h
          rename_i h2
          rw [if_neg h2] at h
          split
          · rfl
          rename_i h3
          rw [if_neg h3] at h
          unfold sunitJoins at h ⊢
          dsimp only at h ⊢
          split
          · rfl
          rename_i h4
          rw [if_neg h4] at h
          split
          · rfl
          rename_i h5
          rw [if_neg h5] at h
          split
          · rfl
          · rw [if_neg (by simp)] at h
            exact h

/-- Without SB8 the right hand side does not matter. -/
theorem sjoinsIf_ahead {a b : Bool} {left right : List SB} (h : endsCloseSp (· = .ATerm) (sunits left) = false) :
    sjoinsIf a left right = sjoinsIf b left right := by
  unfold sjoinsIf
  split
  · unfold sunitJoins
    simp only [h, Bool.false_and]
  · rfl

theorem Sentences.local_rules : Local trie.IsValue J := by
  intro e left right m hne _ _ hk hm hmk hz
  have h := grow_join (J := J e) (right := right) (left := left) (i := 0) (by omega)
  simp only [List.take_zero, List.reverse_nil, List.nil_append, List.drop_zero] at h
  generalize hk' : grow (J e) left right = k at *
  cases right with
  | nil => simp at hk
  | cons b r =>
    obtain ⟨m, rfl⟩ : ∃ k, m = k + 1 := ⟨m - 1, by omega⟩
    obtain ⟨a, l, rfl⟩ := List.exists_cons_of_ne_nil hne
    have hhead : ∀ (ah : Bool) (l : List SB) (r r' : List SB),
        sjoinsIf ah l (sclass b :: r) = sjoinsIf ah l (sclass b :: r') := by
      intro ah l r r'
      cases l <;> rfl
    by_cases hap : (sclass a).paraSep = true
    · -- SB3
      simp only [J, List.map_cons, List.take_succ_cons, sjoinsIf, hap, if_true] at h ⊢
      exact h
    by_cases hat : endsCloseSp (· = .ATerm) (sunits ((a :: l).map sclass)) = true
    · -- SB8
      rw [show (b :: r).take (m + 1) = b :: r.take m from rfl]
      unfold J at h ⊢
      rw [List.map_cons, hhead _ _ _ (r.map sclass)]
      rw [List.map_cons (l := r)] at h
      refine sjoinsIf_mono h ?_
      intro hahead
      have hrun : ∀ (P : List Nat) (z : Nat) (R : List Nat), (∀ x ∈ P, (sclass x).stops = false) →
          lowerAheadCut e ((z :: R).map sclass) = true → J e (P.reverse ++ a :: l) (z :: R) = true := by
        intro P z R hP hah
        unfold J
        rw [hah, List.map_append]
        refine sjoinsIf_run (by simp) ?_ hat ?_ _ _
        · intro x hx; simp at hx; rw [← hx]; simpa using hap
        · intro x hx
          obtain ⟨y, hy, rfl⟩ := List.mem_map.mp hx
          exact hP y (List.mem_reverse.mp hy)
      rcases dropWhile_split (fun x => !(sclass x).stops) (b :: r) with hall | ⟨ig, y, r', hr', hig, hy⟩
      · -- no end in sight
        have hall' : ∀ x ∈ b :: r, (sclass x).stops = false := by intro x hx; simpa using hall x hx
        rw [← List.map_cons] at hahead
        have hg := grow_append (J := J e) (a := b :: r) (b := []) (left := a :: l) (by
          intro i hi
          obtain ⟨z, zs, hz⟩ := List.exists_cons_of_ne_nil (l := (b :: r).drop i) (by simp at hi ⊢; omega)
          rw [List.append_nil, hz]
          apply hrun
          · intro x hx; exact hall' x (List.mem_of_mem_take hx)
          · rw [← hz]
            rw [← List.take_append_drop i (b :: r), List.map_append, lowerAheadCut_run] at hahead
            · exact hahead
            · intro x hx
              obtain ⟨w, hw, rfl⟩ := List.mem_map.mp hx
              exact hall' w (List.mem_of_mem_take hw))
        rw [List.append_nil, hk'] at hg
        omega
      · have hig' : ∀ x ∈ ig, (sclass x).stops = false := by intro x hx; simpa using hig x hx
        have hmig : ∀ x ∈ ig.map sclass, x.stops = false := by
          intro x hx
          obtain ⟨w, hw, rfl⟩ := List.mem_map.mp hx
          exact hig' w hw
        have hy' : (sclass y).stops = true := by simpa using hy
        rw [← List.map_cons, hr', List.map_append, lowerAheadCut_run _ _ hmig] at hahead
        have hyl : sclass y = .Lower := by
          simpa [lowerAheadCut, lowerAhead, hy'] using hahead
        rw [← List.map_cons, show b :: r.take m = (b :: r).take (m + 1) from rfl, hr']
        by_cases hin : ig.length < m + 1
        · obtain ⟨q, hq⟩ : ∃ q, m + 1 - ig.length = q + 1 := ⟨m - ig.length, by omega⟩
          rw [List.take_append, List.take_of_length_le (by omega), hq, List.take_succ_cons, List.map_append,
            lowerAheadCut_run _ _ hmig, List.map_cons, hyl]
          simp [lowerAheadCut, lowerAhead, SB.stops]
        · have hg := grow_append (J := J e) (a := ig ++ [y]) (b := r') (left := a :: l) (by
            intro i hi
            have hi' : i ≤ ig.length := by simp at hi; omega
            rw [List.take_append_of_le_length hi']
            obtain ⟨z, zs, hz⟩ := List.exists_cons_of_ne_nil (l := (ig ++ [y]).drop i ++ r') (by
              intro h; have := congrArg List.length h; simp at this; omega)
            rw [hz]
            apply hrun
            · intro x hx; exact hig' x (List.mem_of_mem_take hx)
            · rw [← hz, List.drop_append_of_le_length hi', List.append_assoc, List.map_append, lowerAheadCut_run]
              · simp [lowerAheadCut, lowerAhead, hyl, SB.stops]
              · intro x hx
                obtain ⟨w, hw, rfl⟩ := List.mem_map.mp hx
                exact hig' w (List.mem_of_mem_drop hw))
          rw [show ig ++ [y] ++ r' = b :: r by rw [hr']; simp, hk'] at hg
          have hlt : m + 1 < k := by rw [hg]; simp; omega
          rw [List.take_append_of_le_length (by omega), lowerAheadCut, decide_eq_true hlt]
          have : ((ig.take (m + 1)).map sclass).all (!·.stops) = true := by
            rw [List.all_eq_true]
            intro x hx
            obtain ⟨w, hw, rfl⟩ := List.mem_map.mp hx
            rw [hig' w (List.mem_of_mem_take hw)]; rfl
          rw [this, Bool.and_true, Bool.or_true]
    · rw [show (b :: r).take (m + 1) = b :: r.take m from rfl]
      unfold J at h ⊢
      rw [List.map_cons (l := r.take m), hhead _ _ _ (r.map sclass)]
      rw [List.map_cons (l := r)] at h
      rw [sjoinsIf_ahead (by simpa using hat)]
      exact h

end Uax29
