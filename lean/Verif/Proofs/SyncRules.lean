import Verif.Proofs.Sync
import Verif.Proofs.SettleRules
/-! # The rules of the packages synchronize -/
namespace Uax29
open Spec

/-- If all inner borders are at the same place, there are at most two segments. -/
theorem length_le_two {α : Type} {as : List (List α)} (hne : ∀ x ∈ as, x ≠ []) {k : Nat}
    (h : ∀ p q, as = p ++ q → p ≠ [] → q ≠ [] → p.flatten.length = k) : as.length ≤ 2 := by
  match as, hne, h with
  | [], _, _ => simp
  | [_], _, _ => simp
  | [_, _], _, _ => simp
  | a1 :: a2 :: a3 :: r, hne, h =>
    have h1 := h [a1] (a2 :: a3 :: r) rfl (by simp) (by simp)
    have h2 := h [a1, a2] (a3 :: r) rfl (by simp) (by simp)
    have := List.length_pos_iff.mpr (hne a2 (by simp))
    simp at h1 h2
    omega

/-- Without inner borders there is at most one segment. -/
theorem length_le_one {α : Type} {as : List (List α)}
    (h : ∀ p q, as = p ++ q → p ≠ [] → q ≠ [] → False) : as.length ≤ 1 := by
  match as, h with
  | [], _ => simp
  | [_], _ => simp
  | a1 :: a2 :: r, h => exact absurd (h [a1] (a2 :: r) rfl (by simp) (by simp)) id

/-- The elements at an inner border. -/
theorem border {α : Type} {as p q : List (List α)} {x : List α} (hfl : as.flatten = x) (hne : ∀ z ∈ as, z ≠ [])
    (h : as = p ++ q) (hp : p ≠ []) (hq : q ≠ []) :
    ∃ P u v Q, p.flatten = P ++ [u] ∧ q.flatten = v :: Q ∧ x = P ++ u :: v :: Q := by
  have hp' := flatten_ne_nil (ts := p) (fun t ht => hne t (by rw [h]; simp [ht])) hp
  have hq' := flatten_ne_nil (ts := q) (fun t ht => hne t (by rw [h]; simp [ht])) hq
  obtain ⟨v, Q, hv⟩ := List.exists_cons_of_ne_nil hq'
  refine ⟨p.flatten.dropLast, p.flatten.getLast hp', v, Q, (List.dropLast_concat_getLast hp').symm, hv, ?_⟩
  rw [← hfl, h, List.flatten_append, hv]
  rw [show ∀ (P : List α) u v Q, P ++ u :: v :: Q = (P ++ [u]) ++ v :: Q by simp, List.dropLast_concat_getLast hp']

namespace Spec

theorem takeWhile_stop {α : Type} {f : α → Bool} {d : α} (hd : f d = false) (V : List α) :
    ∀ U : List α, (U ++ d :: V).takeWhile f = U.takeWhile f
  | [] => by simp [hd]
  | u :: U => by
    rw [List.cons_append, List.takeWhile_cons, List.takeWhile_cons, takeWhile_stop hd V U]

/-- What is before two units does not matter, nor what is before one unit if it is no flag letter and
the unit before it does not matter. -/
theorem unitJoins_before {ph : Bool} {u : WSet} {U : List WSet} {d : WSet} (hd : d .RegionalIndicator = false)
    (V V' : List WSet) (b : WSet) (n : Option WSet) :
    unitJoins ph (u :: U ++ d :: V) b n = unitJoins ph (u :: U ++ d :: V') b n := by
  have e1 := takeWhile_stop (f := fun x : WSet => x .RegionalIndicator) hd V (u :: U)
  have e2 := takeWhile_stop (f := fun x : WSet => x .RegionalIndicator) hd V' (u :: U)
  have e3 : ∀ W : List WSet, (u :: U ++ d :: W).tail.head? = (U ++ [d]).head? := by
    intro W
    cases U <;> rfl
  unfold unitJoins
  rw [e1, e2, e3, e3]
  rfl

theorem joins_syncs (ph : Bool) {h x y : List WSet} (hok : ∀ z ∈ x, OkSet z)
    (hri : ∀ I d R, x = I ++ d :: R → (∀ i ∈ I, i.ignorable = true) → d.ignorable = false → d .RegionalIndicator = false) :
    Syncs 2 (joins ph) h x y := by
  intro h1 h2 as hfl hne hbd
  by_cases hx : x = []
  · subst hx
    have : as = [] := by
      cases as with
      | nil => rfl
      | cons a as =>
        have := hne a (by simp)
        simp at hfl
        exact absurd hfl.1 this
    simp [this]
  cases y with
  | nil => cases x.reverse ++ h <;> simp [joins] at h2
  | cons b y =>
  rcases dropWhile_split (fun z : WSet => z.ignorable) x with hall | ⟨I, d, R, rfl, hI, hd⟩
  · -- nothing but ignored characters
    refine Nat.le_trans (length_le_one ?_) (by omega : 1 ≤ 2)
    intro p q hpq hp hq
    obtain ⟨P, u, v, Q, ep, eq, rfl⟩ := border hfl hne hpq hp hq
    have := hbd p q hpq hp hq
    rw [ep, eq, List.reverse_append, List.cons_append, List.reverse_singleton, List.singleton_append,
      joins_ignored ph _ _ ((hok u (by simp)).ign (hall u (by simp))) ((hok v (by simp)).ign (hall v (by simp)))
        (hall v (by simp))] at this
    cases this
  have hdr := hri I d R rfl hI hd
  have hrev : (I ++ d :: R).reverse = R.reverse ++ d :: I.reverse := by simp
  -- the units of the text
  have hU : ∀ A : List WSet, ∃ V, units (R.reverse ++ d :: A) = units (R.reverse ++ [d]) ++ V := by
    intro A
    cases A with
    | nil => exact ⟨[], by simp⟩
    | cons a A => exact ⟨_, units_append (.inl hd) _⟩
  obtain ⟨V, hV⟩ := hU I.reverse
  obtain ⟨V', hV'⟩ := hU (I.reverse ++ h)
  obtain ⟨U, hUd⟩ := units_getLast d R.reverse
  rw [hUd] at hV hV'
  rw [hrev, List.append_assoc, List.cons_append] at h2
  rw [hrev] at h1
  have hUe : U = [] := by
    cases U with
    | nil => rfl
    | cons u U =>
      exfalso
      obtain ⟨z, Z, hZ⟩ := List.exists_cons_of_ne_nil (l := R.reverse ++ [d]) (by simp)
      have e : ∀ A, R.reverse ++ d :: A = z :: (Z ++ A) := by
        intro A
        rw [show R.reverse ++ d :: A = (R.reverse ++ [d]) ++ A by simp, hZ]; rfl
      rw [e] at h1 h2 hV hV'
      have e2 : units (z :: (Z ++ (I.reverse ++ h))) = u :: U ++ d :: V' := by rw [hV']; simp
      have e1 : units (z :: (Z ++ I.reverse)) = u :: U ++ d :: V := by rw [hV]; simp
      simp only [joins, e1, e2] at h1 h2
      rw [unitJoins_before hdr V' V] at h2
      rw [h2] at h1
      cases h1
  subst hUe
  obtain ⟨hs1, hs2⟩ := units_single hUd
  apply length_le_two hne (k := I.length)
  intro p q hpq hp hq
  obtain ⟨P, u, v, Q, ep, eq, ex⟩ := border hfl hne hpq hp hq
  have hb := hbd p q hpq hp hq
  rw [ep, eq, List.reverse_append, List.cons_append, List.reverse_singleton, List.singleton_append] at hb
  have hlen : p.flatten.length = P.length + 1 := by rw [ep]; simp
  -- both are ignored, or the first is `d`
  rw [hlen]
  rcases Nat.lt_trichotomy (P.length + 1) I.length with hlt | heq | hgt
  · exfalso
    have hu : u ∈ I := by
      have h3 : (I ++ d :: R)[P.length]? = some u := by rw [ex]; simp
      rw [List.getElem?_append_left (by omega)] at h3
      exact List.mem_of_getElem? h3
    have hv : v ∈ I := by
      have h3 : (I ++ d :: R)[P.length + 1]? = some v := by rw [ex]; simp
      rw [List.getElem?_append_left (by omega)] at h3
      exact List.mem_of_getElem? h3
    rw [joins_ignored ph _ _ ((hok u (by simp [hu])).ign (hI u hu)) ((hok v (by simp [hv])).ign (hI v hv)) (hI v hv)] at hb
    cases hb
  · exact heq
  · exfalso
    have hv : v ∈ R := by
      have h3 : (I ++ d :: R)[P.length + 1]? = some v := by rw [ex]; simp
      rw [List.getElem?_append_right (by omega), show P.length + 1 - I.length = (P.length - I.length) + 1 by omega,
        List.getElem?_cons_succ] at h3
      exact List.mem_of_getElem? h3
    have hu : u ∈ d :: R := by
      have h3 : (I ++ d :: R)[P.length]? = some u := by rw [ex]; simp
      rw [List.getElem?_append_right (by omega)] at h3
      exact List.mem_of_getElem? h3
    have hvi := hs1 v (by simpa using hv)
    have hun : u.newline = false := by
      rcases List.mem_cons.mp hu with rfl | hu
      · exact hs2 (by intro h0; rw [List.reverse_eq_nil_iff] at h0; rw [h0] at hv; cases hv)
      · exact (hok u (by simp [hu])).ign (hs1 u (by simpa using hu))
    rw [joins_ignored ph _ _ hun ((hok v (by simp [hv])).ign hvi) hvi] at hb
    cases hb

/-- If one unit is all there is, the characters after it are ignored. -/
theorem sunits_single {b : SB} : ∀ {X : List SB}, sunits (X ++ [b]) = [b] → ∀ x ∈ X, x.ignorable = true
  | [], _ => by simp
  | [x], h => by
    simp only [List.cons_append, List.nil_append, sunits] at h
    split at h
    · rename_i hx
      simp only [Bool.and_eq_true] at hx
      simpa using hx.1
    · simp at h
  | x :: y :: X, h => by
    simp only [List.cons_append] at h
    rw [sunits] at h
    split at h
    · rename_i hx
      simp only [Bool.and_eq_true] at hx
      intro z hz
      rcases List.mem_cons.mp hz with rfl | hz
      · exact hx.1
      · exact sunits_single (X := y :: X) h z hz
    · have := sunits_ne_nil (L := y :: (X ++ [b])) (by simp)
      simp at h
      exact absurd h.2 this

theorem stops_ignorable {x : SB} (h : x.ignorable = true) : x.stops = false := by
  revert h; cases x <;> decide

/-- A boundary needs a sentence end. -/
theorem sunitJoins_false {ahead : Bool} {left : List SB} {b : SB} (hp : left.head?.any (·.paraSep) = false)
    (h : sunitJoins ahead left b = false) : endsCloseSp (·.saTerm) left = true := by
  rw [← Bool.not_eq_false]
  intro h0
  simp only [sunitJoins, h0, hp, Bool.false_and, Bool.or_false, Bool.false_eq_true, if_false] at h
  repeat' split at h <;> first | cases h | skip

/-- A sentence end among the units nearby hides those before it. -/
theorem endsClose_before {X : SB → Bool} {U V : List SB} (h : ∃ x ∈ U, x ≠ .Close) :
    endsClose X (U ++ V) = endsClose X U := by
  unfold endsClose
  rw [List.dropWhile_append]
  have : U.dropWhile (fun x => decide (x = .Close)) ≠ [] := by
    intro h0
    obtain ⟨x, hx, hxc⟩ := h
    have := dropWhile_nil_iff.mp h0 x hx
    simp [hxc] at this
  cases hd : U.dropWhile (fun x => decide (x = .Close)) with
  | nil => exact absurd hd this
  | cons y r => simp

theorem endsCloseSp_before {X : SB → Bool} {U V : List SB} (h : ∃ x ∈ U, x ≠ .Close ∧ x ≠ .Sp) :
    endsCloseSp X (U ++ V) = endsCloseSp X U := by
  unfold endsCloseSp
  rw [List.dropWhile_append]
  obtain ⟨x, hx, h1, h2⟩ := h
  have hx' : x ∈ U.dropWhile (fun x => decide (x = .Sp)) := by
    have e := List.takeWhile_append_dropWhile (p := fun x => decide (x = SB.Sp)) (l := U)
    rw [← e] at hx
    rcases List.mem_append.mp hx with h | h
    · have := List.all_eq_true.mp List.all_takeWhile x h
      simp [h2] at this
    · exact h
  have : (U.dropWhile (fun x => decide (x = .Sp))).isEmpty = false := by
    cases hd : U.dropWhile (fun x => decide (x = .Sp)) with
    | nil => rw [hd] at hx'; cases hx'
    | cons => rfl
  rw [this]
  exact endsClose_before ⟨x, hx', h1⟩

theorem sunitJoins_before {ahead : Bool} {u : SB} {U : List SB} {d : SB} (hu : u.paraSep = false)
    (hs : ∃ x ∈ u :: U ++ [d], x.saTerm = true) (V V' : List SB) (b : SB) :
    sunitJoins ahead (u :: U ++ [d] ++ V) b = sunitJoins ahead (u :: U ++ [d] ++ V') b := by
  have hs' : ∃ x ∈ u :: U ++ [d], x ≠ .Close ∧ x ≠ .Sp := by
    obtain ⟨x, hx, hx2⟩ := hs
    refine ⟨x, hx, ?_, ?_⟩ <;> rintro rfl <;> cases hx2
  have hs2 : ∃ x ∈ u :: U ++ [d], x ≠ .Close := by
    obtain ⟨x, hx, h, _⟩ := hs'
    exact ⟨x, hx, h⟩
  have e3 : ∀ W : List SB, (u :: U ++ [d] ++ W).tail.head? = (U ++ [d]).head? := by
    intro W
    cases U <;> rfl
  have e4 : ∀ W : List SB, (u :: U ++ [d] ++ W).head? = some u := fun W => rfl
  unfold sunitJoins
  simp only [endsCloseSp_before hs', endsClose_before hs2, e3, e4, Option.any_some, hu, Bool.false_and]

theorem sjoinsIf_syncs (c : Bool) {h x y : List SB} :
    Syncs 1 (fun l r => sjoinsIf (lowerAheadCut c r) l r) h x y := by
  intro h1 h2 as hfl hne hbd
  dsimp only at h1 h2 hbd
  apply length_le_one
  intro p q hpq hp hq
  obtain ⟨P, u, v, Q, ep, eq, ex⟩ := border hfl hne hpq hp hq
  have hb := hbd p q hpq hp hq
  rw [ep, eq, List.reverse_append, List.cons_append, List.reverse_singleton, List.singleton_append] at hb
  cases y with
  | nil => cases x.reverse ++ h <;> simp [sjoinsIf] at h2
  | cons b y =>
  generalize lowerAheadCut c (b :: y) = ahead at h1 h2
  obtain ⟨a, A, ha⟩ := List.exists_cons_of_ne_nil (l := x.reverse) (by rw [ex]; simp)
  rw [ha] at h1
  rw [ha, List.cons_append] at h2
  simp only [sjoinsIf] at h1 h2
  split at h1
  · cases h1
  rename_i c1; rw [if_neg c1] at h2
  split at h1
  · rename_i c2; rw [if_pos c2] at h2; cases h2
  rename_i hap; rw [if_neg hap] at h2
  split at h1
  · cases h1
  rename_i c3; rw [if_neg c3] at h2
  have hpara : ∀ B, (sunits (a :: B)).head?.any (·.paraSep) = false := by
    intro B
    rw [Bool.eq_false_iff]
    intro h
    exact hap (sunits_head_para h)
  have hend := sunitJoins_false (hpara A) h1
  have hsa : ∃ s ∈ sunits (a :: A), s.saTerm = true := by
    simp only [endsCloseSp, endsClose, Option.any_eq_true] at hend
    obtain ⟨s, hs, hs2⟩ := hend
    exact ⟨s, (List.dropWhile_sublist _).subset ((List.dropWhile_sublist _).subset (List.mem_of_mem_head? hs)), hs2⟩
  have hnosa : ∀ s : SB, s.ignorable = true → s.saTerm = false := by intro s; cases s <;> decide
  have hnopara : ∀ s : SB, s.ignorable = true → s.paraSep = false := by intro s; cases s <;> decide
  rcases dropWhile_split (fun z : SB => z.ignorable) x with hall | ⟨I, d, R, hx, hI, hd⟩
  · obtain ⟨s, hs, hs2⟩ := hsa
    have := hall s (by rw [← List.mem_reverse, ha]; exact sunits_mem hs)
    rw [hnosa s this] at hs2; cases hs2
  have hrev : x.reverse = (R.reverse ++ [d]) ++ I.reverse := by rw [hx]; simp
  have hlast : (R.reverse ++ [d]).getLast? = some d := by simp
  have hU : ∀ B : List SB, ∃ V, sunits (R.reverse ++ [d] ++ B) = sunits (R.reverse ++ [d]) ++ V ∧ ∀ z ∈ V, z ∈ B := by
    intro B
    cases B with
    | nil => exact ⟨[], by simp, by simp⟩
    | cons z B => exact ⟨_, sunits_append hlast (.inl hd), fun _ => sunits_mem⟩
  obtain ⟨V, hV, hVI⟩ := hU I.reverse
  obtain ⟨V', hV', _⟩ := hU (I.reverse ++ h)
  rw [← hrev, ha] at hV
  rw [← List.append_assoc, ← hrev, ha, List.cons_append] at hV'
  have hs0 : ∃ s ∈ sunits (R.reverse ++ [d]), s.saTerm = true := by
    obtain ⟨s, hs, hs2⟩ := hsa
    rw [hV] at hs
    rcases List.mem_append.mp hs with hs | hs
    · exact ⟨s, hs, hs2⟩
    · rw [hnosa s (hI s (by simpa using hVI s hs))] at hs2; cases hs2
  have hd' := sunits_getLast hlast (.inl hd)
  obtain ⟨U, hUd⟩ : ∃ U, sunits (R.reverse ++ [d]) = U ++ [d] := List.getLast?_eq_some_iff.mp hd'
  cases U with
  | cons w U =>
    have hw := hpara A
    rw [hV, hUd] at hw
    rw [hUd] at hs0
    rw [hV, hUd, sunitJoins_before (by simpa using hw) hs0 V V', ← hUd, ← hV', h2] at h1
    cases h1
  | nil =>
    have hR := sunits_single hUd
    have hdsa : d.saTerm = true := by
      rw [hUd] at hs0
      simpa using hs0
    have hdp : d.paraSep = false := by revert hdsa; cases d <;> decide
    rcases Nat.lt_or_ge I.length (P.length + 1) with hgt | hle
    · have hv : v ∈ R := by
        have h3 : x[P.length + 1]? = some v := by rw [ex]; simp
        rw [hx, List.getElem?_append_right (by omega), show P.length + 1 - I.length = (P.length - I.length) + 1 by omega,
          List.getElem?_cons_succ] at h3
        exact List.mem_of_getElem? h3
      have hu : u ∈ d :: R := by
        have h3 : x[P.length]? = some u := by rw [ex]; simp
        rw [hx, List.getElem?_append_right (by omega)] at h3
        exact List.mem_of_getElem? h3
      have hup : u.paraSep = false := by
        rcases List.mem_cons.mp hu with rfl | hu
        · exact hdp
        · exact hnopara u (hR u (by simpa using hu))
      simp [sjoinsIf, hup, hR v (by simpa using hv)] at hb
    · have hPu : ∀ z ∈ P ++ [u], z ∈ I := by
        have h4 : P ++ [u] <+: I := by
          refine List.prefix_of_prefix_length_le (l₃ := x) ⟨v :: Q, by rw [ex]; simp⟩ ⟨d :: R, hx.symm⟩ ?_
          simpa using hle
        exact fun z hz => h4.subset hz
      rw [sjoinsIf_nonstop] at hb
      · cases hb
      · intro z hz
        exact stops_ignorable (hI z (hPu z (by simp at hz ⊢; exact hz.symm)))

/-- The character `z` extends nothing, so the left sides that skip such characters end at it. -/
theorem conjunct_stop {z : GSet} (h1 : z .InCBExtend = false) (h2 : z .InCBLinker = false) (S W W' : List GSet) :
    conjunct (S ++ z :: W) = conjunct (S ++ z :: W') := by
  simp only [conjunct, takeWhile_stop (f := fun x : GSet => x .InCBExtend || x .InCBLinker) (d := z) (by simp [h1, h2])]
  congr 1
  have hl : (S.takeWhile fun x : GSet => x .InCBExtend || x .InCBLinker).length ≤ S.length :=
    length_takeWhile_le ..
  generalize (S.takeWhile fun x : GSet => x .InCBExtend || x .InCBLinker).length = n at hl
  rw [List.drop_append_of_le_length hl, List.drop_append_of_le_length hl]
  cases S.drop n <;> rfl

theorem pictographZwj_stop {z : GSet} (h1 : z .Extend = false) (h2 : z .ZWJ = false) (S W W' : List GSet) :
    pictographZwj (S ++ z :: W) = pictographZwj (S ++ z :: W') := by
  cases S with
  | nil => simp [pictographZwj, h2]
  | cons s S =>
    have : ∀ W : List GSet, ((S ++ z :: W).dropWhile (fun x : GSet => x .Extend)).head?
        = ((S ++ [z]).dropWhile (fun x : GSet => x .Extend)).head? := by
      intro W
      rw [List.dropWhile_append, List.dropWhile_append]
      split
      · simp [h1]
      · cases hS : S.dropWhile (fun x : GSet => x .Extend) with
        | nil => rename_i h; simp [hS] at h
        | cons => rfl
    simp only [pictographZwj, List.cons_append, List.tail_cons, List.head?_cons]
    rw [this W, this W']

theorem graphemeJoins_syncs {h x y : List GSet}
    (hinc : ∀ z ∈ x, (z .InCBExtend || z .InCBLinker) = true → (z .Extend || z .ZWJ) = true)
    (hctl : ∀ z ∈ x, (z .Extend || z .ZWJ) = true → z.control = false)
    (hri : x.head?.any (· .RegionalIndicator) = false) : Syncs 1 graphemeJoins h x y := by
  intro h1 h2 as hfl hne hbd
  apply length_le_one
  intro p q hpq hp hq
  obtain ⟨P, u, v, Q, ep, eq, ex⟩ := border hfl hne hpq hp hq
  have hb := hbd p q hpq hp hq
  rw [ep, eq, List.reverse_append, List.cons_append, List.reverse_singleton, List.singleton_append] at hb
  cases y with
  | nil => cases x.reverse ++ h <;> simp [graphemeJoins] at h2
  | cons b y =>
  rcases dropWhile_split (fun z : GSet => z .Extend || z .ZWJ) x.reverse with hall | ⟨S, z, Z, hx, _, hz⟩
  · have hu := hall u (by rw [ex]; simp)
    have hv := hall v (by rw [ex]; simp)
    have cu := hctl u (by rw [ex]; simp) hu
    have cv := hctl v (by rw [ex]; simp) hv
    simp only [graphemeJoins, cu, cv, hv, Bool.or_true, Bool.true_or, Bool.or_self, Bool.false_eq_true, if_false,
      ite_self] at hb
    cases hb
  · have hzx : z ∈ x := by rw [← List.mem_reverse, hx]; simp
    have hz2 := hinc z hzx
    simp only [Bool.or_eq_false_iff] at hz
    have hz3 : z .InCBExtend = false ∧ z .InCBLinker = false := by
      rw [← Bool.or_eq_false_iff, Bool.eq_false_iff]
      intro h
      have := hz2 h
      rw [hz.1, hz.2] at this
      cases this
    have e1 : conjunct (x.reverse ++ h) = conjunct x.reverse := by
      rw [hx, List.append_assoc, List.cons_append]
      exact conjunct_stop hz3.1 hz3.2 _ _ _
    have e2 : pictographZwj (x.reverse ++ h) = pictographZwj x.reverse := by
      rw [hx, List.append_assoc, List.cons_append]
      exact pictographZwj_stop hz.1 hz.2 _ _ _
    have e3 : oddIndicators (x.reverse ++ h) = oddIndicators x.reverse := by
      obtain ⟨f, X, rfl⟩ := List.exists_cons_of_ne_nil (l := x) (by rw [ex]; simp)
      simp only [List.head?_cons, Option.any_some] at hri
      simp only [oddIndicators, List.reverse_cons, List.append_assoc, List.singleton_append]
      rw [takeWhile_stop (f := fun x : GSet => x .RegionalIndicator) hri, takeWhile_stop (f := fun x : GSet => x .RegionalIndicator) (V := []) hri]
    obtain ⟨a, A, ha⟩ := List.exists_cons_of_ne_nil (l := x.reverse) (by rw [hx]; simp)
    rw [ha, List.cons_append] at e1 e2 e3 h2
    rw [ha] at h1
    simp only [graphemeJoins, e1, e2, e3] at h1 h2
    rw [h1] at h2
    cases h2

end Spec

theorem Words.syncs_good {h x y : List Nat} (hv : ∀ z ∈ x, goodCell z = true)
    (hri : ∀ I d R, x = I ++ d :: R → (∀ i ∈ I, (wset i).ignorable = true) → (wset d).ignorable = false →
      wset d .RegionalIndicator = false) : Syncs 2 J h x y := by
  apply Syncs.of_map (J := joins false)
  apply joins_syncs
  · intro z hz
    obtain ⟨v, hv', rfl⟩ := List.mem_map.mp hz
    exact OkSet.of_goodCell (hv v hv')
  · intro I d R hx hI hd
    obtain ⟨I', r, rfl, rfl, hr⟩ := List.map_eq_append_iff.mp hx
    obtain ⟨d', R', rfl, rfl, rfl⟩ := List.map_eq_cons_iff.mp hr
    exact hri I' d' R' rfl (fun i hi => hI _ (List.mem_map_of_mem hi)) hd

theorem Words.syncs {h x y : List Nat} (hv : ∀ z ∈ x, trie.IsValue z)
    (hri : ∀ I d R, x = I ++ d :: R → (∀ i ∈ I, (wset i).ignorable = true) → (wset d).ignorable = false →
      wset d .RegionalIndicator = false) : Syncs 2 J h x y :=
  Words.syncs_good (fun z hz => okValue.all (P := fun v => goodCell v = true) (by decide +kernel) (okValue_of (hv z hz))) hri

theorem Phrases.syncs {h x y : List Nat} (hv : ∀ z ∈ x, trie.IsValue z)
    (hri : ∀ I d R, x = I ++ d :: R → (∀ i ∈ I, (pset i).ignorable = true) → (pset d).ignorable = false →
      pset d .RegionalIndicator = false) : Syncs 2 J h x y := by
  apply Syncs.of_map (J := joins true)
  apply joins_syncs
  · intro z hz
    obtain ⟨v, hv', rfl⟩ := List.mem_map.mp hz
    exact OkSet.of_goodCell (value_good (hv v hv'))
  · intro I d R hx hI hd
    obtain ⟨I', r, rfl, rfl, hr⟩ := List.map_eq_append_iff.mp hx
    obtain ⟨d', R', rfl, rfl, rfl⟩ := List.map_eq_cons_iff.mp hr
    exact hri I' d' R' rfl (fun i hi => hI _ (List.mem_map_of_mem hi)) hd

theorem Sentences.syncs {h x y : List Nat} (c : Bool) : Syncs 1 (J c) h x y :=
  Syncs.of_map sclass (J := fun l r => sjoinsIf (lowerAheadCut c r) l r) (sjoinsIf_syncs c)

theorem Graphemes.syncs {h x y : List Nat} (hv : ∀ z ∈ x, trie.IsValue z)
    (hri : x.head?.any (gset · .RegionalIndicator) = false) : Syncs 1 J h x y := by
  apply Syncs.of_map (J := graphemeJoins)
  apply graphemeJoins_syncs
  · intro z hz
    obtain ⟨v, hv', rfl⟩ := List.mem_map.mp hz
    exact okValue.all (P := fun v => (gset v .InCBExtend || gset v .InCBLinker) = true →
      (gset v .Extend || gset v .ZWJ) = true) (by decide +kernel) (okValue_of (hv v hv'))
  · intro z hz
    obtain ⟨v, hv', rfl⟩ := List.mem_map.mp hz
    exact okValue.all (P := fun v => (gset v .Extend || gset v .ZWJ) = true → (gset v).control = false)
      (by decide +kernel) (okValue_of (hv v hv'))
  · cases x with
    | nil => rfl
    | cons a x => exact hri

end Uax29
