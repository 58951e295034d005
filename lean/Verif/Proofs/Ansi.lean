import Verif.Spec.Ansi
import Verif.Proofs.Iter
/-! # Recognition of escape sequences against the grammar -/
namespace Uax29.Graphemes
open Spec

theorem toNat_eq_iff {x : UInt8} {n : Nat} (hn : n < 256) : x.toNat = n ↔ x = UInt8.ofNat n := by
  constructor
  · intro h; apply UInt8.toNat_inj.mp; simp [h]; omega
  · rintro rfl; simp; omega

/-! ## control sequences -/

theorem csiLoop_true (i : Nat) : ∀ (d : Bytes) (n : Nat), csiLoop true i d = n → n ≠ 0 →
    ∃ inters final v, d = inters ++ final :: v ∧ (∀ b ∈ inters, byteIn 0x20 0x2F b) ∧
      byteIn 0x40 0x7E final ∧ n = i + inters.length + 1 := by
  intro d
  induction d generalizing i with
  | nil => intro n h hn; simp [csiLoop] at h; omega
  | cons x d ih =>
    intro n h hn
    simp only [csiLoop] at h
    split at h
    · simp at h; omega
    · split at h
      · rename_i hx
        obtain ⟨inters, final, v, hd, hi, hf, hl⟩ := ih _ n h hn
        refine ⟨x :: inters, final, v, by rw [hd]; rfl, ?_, hf, by simp; omega⟩
        intro b hb
        rcases List.mem_cons.mp hb with rfl | hb
        · exact hx
        · exact hi b hb
      · split at h
        · rename_i hx
          exact ⟨[], x, d, rfl, by simp, hx, by simp; omega⟩
        · omega

theorem csiLoop_false (i : Nat) : ∀ (d : Bytes) (n : Nat), csiLoop false i d = n → n ≠ 0 →
    ∃ body v, d = body ++ v ∧ controlSequence body ∧ n = i + body.length := by
  intro d
  induction d generalizing i with
  | nil => intro n h hn; simp [csiLoop] at h; omega
  | cons x d ih =>
    intro n h hn
    simp only [csiLoop] at h
    split at h
    · rename_i hx
      simp only [Bool.false_eq_true, if_false] at h
      obtain ⟨body, v, hd, ⟨ps, is, f, hb, hp, hi, hf⟩, hl⟩ := ih _ n h hn
      refine ⟨x :: body, v, by rw [hd]; rfl, ⟨x :: ps, is, f, by rw [hb]; rfl, ?_, hi, hf⟩, by simp; omega⟩
      intro b hb
      rcases List.mem_cons.mp hb with rfl | hb
      · exact hx
      · exact hp b hb
    · split at h
      · rename_i hx
        obtain ⟨is, f, v, hd, hi, hf, hl⟩ := csiLoop_true _ d n h hn
        refine ⟨x :: is ++ [f], v, by rw [hd]; simp, ⟨[], x :: is, f, by simp, by simp, ?_, hf⟩, by simp; omega⟩
        intro b hb
        rcases List.mem_cons.mp hb with rfl | hb
        · exact hx
        · exact hi b hb
      · split at h
        · rename_i hx
          exact ⟨[x], d, rfl, ⟨[], [], x, rfl, by simp, by simp, hx⟩, by simp; omega⟩
        · omega

theorem csiLoop_inters {f : UInt8} (hf : byteIn 0x40 0x7E f) (v : Bytes) : ∀ (is : Bytes) (s : Bool) (i : Nat),
    (∀ b ∈ is, byteIn 0x20 0x2F b) → csiLoop s i (is ++ f :: v) = i + is.length + 1 := by
  intro is
  induction is with
  | nil =>
    intro s i _
    have h1 := hf.1; have h2 := hf.2
    simp only [List.nil_append, csiLoop, List.length_nil]
    rw [if_neg (by omega), if_neg (by omega), if_pos (by omega)]
  | cons x is ih =>
    intro s i h
    have hx := h x (by simp)
    have h1 := hx.1; have h2 := hx.2
    simp only [List.cons_append, csiLoop]
    rw [if_neg (by omega), if_pos (by omega), ih _ _ fun b hb => h b (List.mem_cons_of_mem _ hb)]
    simp; omega

theorem csiLoop_body {body : Bytes} (h : controlSequence body) (v : Bytes) (i : Nat) :
    csiLoop false i (body ++ v) = i + body.length := by
  obtain ⟨ps, is, f, rfl, hp, hi, hf⟩ := h
  induction ps generalizing i with
  | nil =>
    rw [List.nil_append, List.append_assoc, List.singleton_append, csiLoop_inters hf v is _ _ hi]
    simp; omega
  | cons x ps ih =>
    have hx := hp x (by simp)
    have h1 := hx.1; have h2 := hx.2
    simp only [List.cons_append, csiLoop]
    rw [if_pos (by omega), if_neg (by simp)]
    have := ih (i + 1) fun b hb => hp b (List.mem_cons_of_mem _ hb)
    rw [this]
    simp; omega

theorem controlSequence.length_pos {body : Bytes} (h : controlSequence body) : 0 < body.length := by
  obtain ⟨ps, is, f, rfl, _⟩ := h
  simp; omega

theorem nfLoop_ne {i : Nat} : ∀ {d : Bytes} {n : Nat}, nfLoop i d = n → n ≠ 0 →
    ∃ inters final v, d = inters ++ final :: v ∧ (∀ b ∈ inters, byteIn 0x20 0x2F b) ∧
      byteIn 0x30 0x7E final ∧ n = i + inters.length + 1 := by
  intro d
  induction d generalizing i with
  | nil => intro n h hn; simp [nfLoop] at h; omega
  | cons x d ih =>
    intro n h hn
    simp only [nfLoop] at h
    split at h
    · rename_i hx
      obtain ⟨inters, final, v, hd, hi, hf, hl⟩ := ih h hn
      refine ⟨x :: inters, final, v, by rw [hd]; rfl, ?_, hf, by simp; omega⟩
      intro b hb
      rcases List.mem_cons.mp hb with rfl | hb
      · exact hx
      · exact hi b hb
    · split at h
      · rename_i hx
        exact ⟨[], x, d, rfl, by simp, hx, by simp; omega⟩
      · omega

theorem nfLoop_inters {f : UInt8} (hf : byteIn 0x30 0x7E f) (v : Bytes) : ∀ (is : Bytes) (i : Nat),
    (∀ b ∈ is, byteIn 0x20 0x2F b) → nfLoop i (is ++ f :: v) = i + is.length + 1 := by
  intro is
  induction is with
  | nil =>
    intro i _
    have h1 := hf.1; have h2 := hf.2
    simp only [List.nil_append, nfLoop, List.length_nil]
    rw [if_neg (by omega), if_pos (by omega)]
  | cons x is ih =>
    intro i h
    have hx := h x (by simp)
    have h1 := hx.1; have h2 := hx.2
    simp only [List.cons_append, nfLoop]
    rw [if_pos (by omega), ih _ fun b hb => h b (List.mem_cons_of_mem _ hb)]
    simp; omega

/-! ## control strings -/

/-- The four loops over control strings: `stop` gives the length of a terminator that begins here. -/
def scan (stop : UInt8 → Bytes → Option Nat) (i : Nat) : Bytes → Option Nat
  | [] => none
  | x :: rest =>
    match stop x rest with
    | some k => some (i + k)
    | none => scan stop (i + 1) rest

def oscStop (x : UInt8) (rest : Bytes) : Option Nat :=
  if x.toNat = bel then some 1 else if x.toNat = can ∨ x.toNat = sub then some 0
  else if isST7 x rest then some 2 else none

def stStop (x : UInt8) (rest : Bytes) : Option Nat :=
  if x.toNat = can ∨ x.toNat = sub then some 0 else if isST7 x rest then some 2 else none

def oscStopC1 (x : UInt8) (_ : Bytes) : Option Nat :=
  if x.toNat = bel ∨ x.toNat = st then some 1 else if x.toNat = can ∨ x.toNat = sub then some 0 else none

def stStopC1 (x : UInt8) (_ : Bytes) : Option Nat :=
  if x.toNat = can ∨ x.toNat = sub then some 0 else if x.toNat = st then some 1 else none

theorem oscLoop_eq : ∀ (d : Bytes) (i : Nat), oscLoop i d = scan oscStop i d
  | [], _ => rfl
  | x :: d, i => by
    simp only [oscLoop, scan, oscStop, oscLoop_eq d (i + 1)]
    repeat' split
    all_goals simp_all

theorem stLoop_eq : ∀ (d : Bytes) (i : Nat), stLoop i d = scan stStop i d
  | [], _ => rfl
  | x :: d, i => by
    simp only [stLoop, scan, stStop, stLoop_eq d (i + 1)]
    repeat' split
    all_goals simp_all

theorem oscLoopC1_eq : ∀ (d : Bytes) (i : Nat), oscLoopC1 i d = scan oscStopC1 i d
  | [], _ => rfl
  | x :: d, i => by
    simp only [oscLoopC1, scan, oscStopC1, oscLoopC1_eq d (i + 1)]
    repeat' split
    all_goals simp_all

theorem stLoopC1_eq : ∀ (d : Bytes) (i : Nat), stLoopC1 i d = scan stStopC1 i d
  | [], _ => rfl
  | x :: d, i => by
    simp only [stLoopC1, scan, stStopC1, stLoopC1_eq d (i + 1)]
    repeat' split
    all_goals simp_all

/-- `stop` recognises the terminators. -/
structure Stops (stop : UInt8 → Bytes → Option Nat) (terms : List Bytes) : Prop where
  none : ∀ x r, stop x r = none → ∀ s ∈ terms ++ cancels, ¬ s <+: x :: r
  some : ∀ x r k, stop x r = some k → (∃ t ∈ terms, t <+: x :: r ∧ t.length = k) ∨
    (k = 0 ∧ ∃ c ∈ cancels, c <+: x :: r)
  term : ∀ x r t, t ∈ terms → t <+: x :: r → stop x r = .some t.length
  cancel : ∀ x r c, c ∈ cancels → c <+: x :: r → stop x r = .some 0
  ne : ∀ t ∈ terms, t ≠ []

theorem scan_some {stop : UInt8 → Bytes → Option Nat} {terms : List Bytes} (h : Stops stop terms) :
    ∀ (d : Bytes) (i n : Nat), scan stop i d = some n →
      ∃ body v, d = body ++ v ∧ controlString terms body v ∧ n = i + body.length := by
  intro d
  induction d with
  | nil => intro i n hn; simp [scan] at hn
  | cons x d ih =>
    intro i n hn
    simp only [scan] at hn
    cases hs : stop x d with
    | some k =>
      rw [hs] at hn
      simp only [Option.some.injEq] at hn
      rcases h.some x d k hs with ⟨t, ht, ⟨v, hv⟩, hk⟩ | ⟨rfl, hc⟩
      · refine ⟨t, v, hv.symm, ⟨[], t, rfl, .inl ht, ?_⟩, by omega⟩
        intro x y hxy hy
        have : y = [] := (List.append_eq_nil_iff.mp hxy.symm).2
        exact absurd this hy
      · refine ⟨[], x :: d, rfl, ⟨[], [], rfl, .inr ⟨rfl, hc⟩, ?_⟩, by simp; omega⟩
        intro x y hxy hy
        have : y = [] := (List.append_eq_nil_iff.mp hxy.symm).2
        exact absurd this hy
    | none =>
      rw [hs] at hn
      obtain ⟨body, v, rfl, ⟨p, t, rfl, ht, hp⟩, hl⟩ := ih _ n hn
      refine ⟨x :: (p ++ t), v, rfl, ⟨x :: p, t, rfl, ht, ?_⟩, by simp at hl ⊢; omega⟩
      intro a b hab hb
      cases a with
      | nil =>
        simp only [List.nil_append] at hab
        rw [← hab]
        intro s hs'
        have := h.none x _ hs s hs'
        simpa using this
      | cons a0 a =>
        simp only [List.cons_append, List.cons.injEq] at hab
        exact hp a b hab.2 hb

theorem scan_body {stop : UInt8 → Bytes → Option Nat} {terms : List Bytes} (h : Stops stop terms)
    {body v : Bytes} (hb : controlString terms body v) (i : Nat) :
    scan stop i (body ++ v) = some (i + body.length) := by
  obtain ⟨p, t, rfl, ht, hp⟩ := hb
  induction p generalizing i with
  | nil =>
    rw [List.nil_append]
    rcases ht with ht | ⟨rfl, c, hc, hv⟩
    · have := h.ne t ht
      obtain ⟨x, r, rfl⟩ : ∃ x r, t = x :: r := by cases t with
        | nil => exact absurd rfl this
        | cons x r => exact ⟨x, r, rfl⟩
      simp only [List.cons_append, scan]
      rw [h.term x (r ++ v) (x :: r) ht ⟨v, rfl⟩]
    · cases v with
      | nil =>
        have : c = [] := by simpa using hv
        simp [cancels, this] at hc
      | cons x r =>
        simp only [List.nil_append, scan]
        rw [h.cancel x r c hc hv]
        rfl
  | cons x p ih =>
    have h0 := hp [] (x :: p) rfl (by simp)
    simp only [List.cons_append, scan]
    cases hs : stop x (p ++ t ++ v) with
    | some k =>
      exfalso
      rcases h.some _ _ _ hs with ⟨t', ht', hpre, _⟩ | ⟨_, c, hc, hpre⟩
      · exact h0 t' (List.mem_append_left _ ht') (by simpa using hpre)
      · exact h0 c (List.mem_append_right _ hc) (by simpa using hpre)
    | none =>
      simp only
      rw [ih (i + 1) fun a b hab hb => hp (x :: a) b (by rw [hab]; rfl) hb]
      simp; omega

theorem isST7_iff {x : UInt8} {r : Bytes} : isST7 x r = true ↔ ST7 <+: x :: r := by
  unfold isST7 ST7
  have he : ∀ y : UInt8, (y.toNat == 0x5C) = true ↔ y = 0x5C := fun y => by
    rw [beq_iff_eq, toNat_eq_iff (by omega)]; rfl
  have hx : (x.toNat == esc) = true ↔ x = 0x1B := by
    rw [beq_iff_eq, show esc = 27 from rfl, toNat_eq_iff (by omega)]; rfl
  cases r with
  | nil => simp
  | cons y r =>
    rw [Bool.and_eq_true, hx]
    simp only [he, List.cons_prefix_cons, List.nil_prefix, and_true]
    exact ⟨fun h => ⟨h.1.symm, h.2.symm⟩, fun h => ⟨h.1.symm, h.2.symm⟩⟩

theorem byte_prefix {x y : UInt8} {r : Bytes} : [y] <+: x :: r ↔ x = y := by
  simp [eq_comm]

theorem toNat_bel {x : UInt8} : x.toNat = bel ↔ x = 0x07 := toNat_eq_iff (by decide)
theorem toNat_can {x : UInt8} : x.toNat = can ↔ x = 0x18 := toNat_eq_iff (by decide)
theorem toNat_sub {x : UInt8} : x.toNat = sub ↔ x = 0x1A := toNat_eq_iff (by decide)
theorem toNat_st {x : UInt8} : x.toNat = st ↔ x = 0x9C := toNat_eq_iff (by decide)
theorem toNat_esc {x : UInt8} : x.toNat = esc ↔ x = 0x1B := toNat_eq_iff (by decide)

theorem isST7_esc {x : UInt8} {r : Bytes} (h : ST7 <+: x :: r) : x = 0x1B := by
  unfold ST7 at h
  simp only [List.cons_prefix_cons] at h
  exact h.1.symm

theorem osc_stops : Stops oscStop [BEL, ST7] := by
  constructor
  · intro x r h
    simp only [oscStop, toNat_bel, toNat_can, toNat_sub] at h
    split at h
    · cases h
    rename_i h1
    split at h
    · cases h
    rename_i h2
    split at h
    · cases h
    rename_i h3
    rw [isST7_iff] at h3
    simp [BEL, cancels] at *
    exact ⟨fun h => h1 h.symm, h3, fun h => h2.1 h.symm, fun h => h2.2 h.symm⟩
  · intro x r k h
    simp only [oscStop, toNat_bel, toNat_can, toNat_sub] at h
    split at h
    · rename_i h1
      cases h
      exact .inl ⟨BEL, by simp, byte_prefix.mpr h1, rfl⟩
    split at h
    · rename_i h1
      cases h
      refine .inr ⟨rfl, ?_⟩
      rcases h1 with h1 | h1
      · exact ⟨[0x18], by simp [cancels], byte_prefix.mpr h1⟩
      · exact ⟨[0x1A], by simp [cancels], byte_prefix.mpr h1⟩
    split at h
    · rename_i h1
      cases h
      exact .inl ⟨ST7, by simp, isST7_iff.mp h1, rfl⟩
    · cases h
  · intro x r t ht hp
    simp only [oscStop, toNat_bel, toNat_can, toNat_sub]
    simp only [List.mem_cons, List.not_mem_nil, or_false] at ht
    rcases ht with rfl | rfl
    · rw [if_pos (byte_prefix.mp hp)]; rfl
    · have hx := isST7_esc hp
      rw [if_neg (by rw [hx]; decide), if_neg (by rw [hx]; decide), if_pos (isST7_iff.mpr hp)]; rfl
  · intro x r c hc hp
    simp only [oscStop, toNat_bel, toNat_can, toNat_sub]
    simp only [cancels, List.mem_cons, List.not_mem_nil, or_false] at hc
    have hx : x = 0x18 ∨ x = 0x1A := by
      rcases hc with rfl | rfl
      · exact .inl (byte_prefix.mp hp)
      · exact .inr (byte_prefix.mp hp)
    rw [if_neg (by rcases hx with rfl | rfl <;> decide), if_pos hx]
  · simp [BEL, ST7]

theorem st_stops : Stops stStop [ST7] := by
  constructor
  · intro x r h
    simp only [stStop, toNat_can, toNat_sub] at h
    split at h
    · cases h
    rename_i h2
    split at h
    · cases h
    rename_i h3
    rw [isST7_iff] at h3
    simp [cancels] at *
    exact ⟨h3, fun h => h2.1 h.symm, fun h => h2.2 h.symm⟩
  · intro x r k h
    simp only [stStop, toNat_can, toNat_sub] at h
    split at h
    · rename_i h1
      cases h
      refine .inr ⟨rfl, ?_⟩
      rcases h1 with h1 | h1
      · exact ⟨[0x18], by simp [cancels], byte_prefix.mpr h1⟩
      · exact ⟨[0x1A], by simp [cancels], byte_prefix.mpr h1⟩
    split at h
    · rename_i h1
      cases h
      exact .inl ⟨ST7, by simp, isST7_iff.mp h1, rfl⟩
    · cases h
  · intro x r t ht hp
    simp only [stStop, toNat_can, toNat_sub]
    simp only [List.mem_cons, List.not_mem_nil, or_false] at ht
    subst ht
    have hx := isST7_esc hp
    rw [if_neg (by rw [hx]; decide), if_pos (isST7_iff.mpr hp)]; rfl
  · intro x r c hc hp
    simp only [stStop, toNat_can, toNat_sub]
    simp only [cancels, List.mem_cons, List.not_mem_nil, or_false] at hc
    have hx : x = 0x18 ∨ x = 0x1A := by
      rcases hc with rfl | rfl
      · exact .inl (byte_prefix.mp hp)
      · exact .inr (byte_prefix.mp hp)
    rw [if_pos hx]
  · simp [ST7]

theorem oscC1_stops : Stops oscStopC1 [BEL, ST8] := by
  constructor
  · intro x r h
    simp only [oscStopC1, toNat_bel, toNat_st, toNat_can, toNat_sub] at h
    split at h
    · cases h
    rename_i h1
    split at h
    · cases h
    rename_i h2
    simp [BEL, ST8, cancels] at *
    exact ⟨fun h => h1.1 h.symm, fun h => h1.2 h.symm, fun h => h2.1 h.symm, fun h => h2.2 h.symm⟩
  · intro x r k h
    simp only [oscStopC1, toNat_bel, toNat_st, toNat_can, toNat_sub] at h
    split at h
    · rename_i h1
      cases h
      rcases h1 with h1 | h1
      · exact .inl ⟨BEL, by simp, byte_prefix.mpr h1, rfl⟩
      · exact .inl ⟨ST8, by simp, byte_prefix.mpr h1, rfl⟩
    split at h
    · rename_i h1
      cases h
      refine .inr ⟨rfl, ?_⟩
      rcases h1 with h1 | h1
      · exact ⟨[0x18], by simp [cancels], byte_prefix.mpr h1⟩
      · exact ⟨[0x1A], by simp [cancels], byte_prefix.mpr h1⟩
    · cases h
  · intro x r t ht hp
    simp only [oscStopC1, toNat_bel, toNat_st, toNat_can, toNat_sub]
    simp only [List.mem_cons, List.not_mem_nil, or_false] at ht
    rcases ht with rfl | rfl
    · rw [if_pos (.inl (byte_prefix.mp hp))]; rfl
    · rw [if_pos (.inr (byte_prefix.mp hp))]; rfl
  · intro x r c hc hp
    simp only [oscStopC1, toNat_bel, toNat_st, toNat_can, toNat_sub]
    simp only [cancels, List.mem_cons, List.not_mem_nil, or_false] at hc
    have hx : x = 0x18 ∨ x = 0x1A := by
      rcases hc with rfl | rfl
      · exact .inl (byte_prefix.mp hp)
      · exact .inr (byte_prefix.mp hp)
    rw [if_neg (by rcases hx with rfl | rfl <;> decide), if_pos hx]
  · simp [BEL, ST8]

theorem stC1_stops : Stops stStopC1 [ST8] := by
  constructor
  · intro x r h
    simp only [stStopC1, toNat_st, toNat_can, toNat_sub] at h
    split at h
    · cases h
    rename_i h2
    split at h
    · cases h
    rename_i h1
    simp [ST8, cancels] at *
    exact ⟨fun h => h1 h.symm, fun h => h2.1 h.symm, fun h => h2.2 h.symm⟩
  · intro x r k h
    simp only [stStopC1, toNat_st, toNat_can, toNat_sub] at h
    split at h
    · rename_i h1
      cases h
      refine .inr ⟨rfl, ?_⟩
      rcases h1 with h1 | h1
      · exact ⟨[0x18], by simp [cancels], byte_prefix.mpr h1⟩
      · exact ⟨[0x1A], by simp [cancels], byte_prefix.mpr h1⟩
    split at h
    · rename_i h1
      cases h
      exact .inl ⟨ST8, by simp, byte_prefix.mpr h1, rfl⟩
    · cases h
  · intro x r t ht hp
    simp only [stStopC1, toNat_st, toNat_can, toNat_sub]
    simp only [List.mem_cons, List.not_mem_nil, or_false] at ht
    subst ht
    have hx : x = 0x9C := byte_prefix.mp hp
    rw [if_neg (by rw [hx]; decide), if_pos hx]; rfl
  · intro x r c hc hp
    simp only [stStopC1, toNat_st, toNat_can, toNat_sub]
    simp only [cancels, List.mem_cons, List.not_mem_nil, or_false] at hc
    have hx : x = 0x18 ∨ x = 0x1A := by
      rcases hc with rfl | rfl
      · exact .inl (byte_prefix.mp hp)
      · exact .inr (byte_prefix.mp hp)
    rw [if_pos hx]
  · simp [ST8]

/-! ## whole sequences -/

/-- The recogniser returns the length of every escape sequence. -/
theorem ansiEscapeLength_of {e v : Bytes} (h : Escape7 e v) : ansiEscapeLength (e ++ v) = e.length := by
  cases h with
  | csi h =>
    simp only [List.cons_append, ansiEscapeLength]
    rw [if_neg (by decide), if_pos (by decide), csiBodyLength, csiLoop_body h]
    have := controlSequence.length_pos h
    rw [if_neg (by omega)]; simp; omega
  | osc h =>
    simp only [List.cons_append, ansiEscapeLength]
    rw [if_neg (by decide), if_neg (by decide), if_pos (by decide), oscLength, oscLoop_eq, scan_body osc_stops h]
    simp; omega
  | str hc h =>
    rename_i c body
    have hs : c.toNat = 0x50 ∨ c.toNat = 0x58 ∨ c.toNat = 0x5E ∨ c.toNat = 0x5F := by
      simp at hc
      rcases hc with rfl | rfl | rfl | rfl <;> decide
    simp only [List.cons_append, ansiEscapeLength]
    rw [if_neg (by decide), if_neg (by omega), if_neg (by omega), if_pos hs,
      stSequenceLength, stLoop_eq, scan_body st_stops h]
    simp; omega
  | two hc hn =>
    rename_i c
    have h1 := hc.1; have h2 := hc.2
    have hs : ∀ k, k < 256 → UInt8.ofNat k ∈ [0x5B, 0x5D, 0x50, 0x58, 0x5E, 0x5F] → c.toNat ≠ k := by
      intro k hk hm h
      exact hn ((toNat_eq_iff hk).mp h ▸ hm)
    have e1 := hs 0x5B (by decide) (by decide)
    have e2 := hs 0x5D (by decide) (by decide)
    have e3 := hs 0x50 (by decide) (by decide)
    have e4 := hs 0x58 (by decide) (by decide)
    have e5 := hs 0x5E (by decide) (by decide)
    have e6 := hs 0x5F (by decide) (by decide)
    simp only [List.cons_append, ansiEscapeLength]
    rw [if_neg (by decide), if_neg e1, if_neg e2, if_neg (by omega)]
    by_cases h3 : 0x40 ≤ c.toNat
    · rw [if_pos (by omega)]; rfl
    · rw [if_neg (by omega), if_pos (by omega)]; rfl
  | nF hne hi hf =>
    rename_i is f
    cases is with
    | nil => exact absurd rfl hne
    | cons x is =>
      have hx := hi x (by simp)
      have h1 := hx.1; have h2 := hx.2
      simp only [List.cons_append, ansiEscapeLength]
      rw [if_neg (by decide), if_neg (by omega), if_neg (by omega), if_neg (by omega),
        if_neg (by omega), if_neg (by omega), if_pos (by omega), List.append_assoc, List.singleton_append,
        nfLoop_inters hf _ _ _ fun b hb => hi b (List.mem_cons_of_mem _ hb)]
      simp; omega

/-- Whatever the recogniser accepts is an escape sequence. -/
theorem ansiEscapeLength_ne {d : Bytes} (h : ansiEscapeLength d ≠ 0) :
    ∃ e v, d = e ++ v ∧ Escape7 e v ∧ ansiEscapeLength d = e.length := by
  suffices ∃ e v, d = e ++ v ∧ Escape7 e v by
    obtain ⟨e, v, rfl, he⟩ := this
    exact ⟨e, v, rfl, he, ansiEscapeLength_of he⟩
  match d, h with
  | [], h => exact absurd rfl h
  | [_], h => exact absurd rfl h
  | x0 :: x1 :: rest, h =>
    simp only [ansiEscapeLength] at h
    split at h
    · exact absurd rfl h
    rename_i h0
    have h0 : x0 = 0x1B := toNat_esc.mp (Classical.not_not.mp h0)
    subst h0
    split at h
    · rename_i h1
      have h1 : x1 = 0x5B := (toNat_eq_iff (by decide)).mp h1
      subst h1
      have hb : csiBodyLength rest ≠ 0 := fun hz => by simp [hz] at h
      obtain ⟨body, v, rfl, hc, _⟩ := csiLoop_false 0 rest _ rfl hb
      exact ⟨0x1B :: 0x5B :: body, v, rfl, .csi hc⟩
    rename_i n1
    split at h
    · rename_i h1
      have h1 : x1 = 0x5D := (toNat_eq_iff (by decide)).mp h1
      subst h1
      cases hb : oscLength rest with
      | none => simp [hb] at h
      | some n =>
        rw [oscLength, oscLoop_eq] at hb
        obtain ⟨body, v, rfl, hc, _⟩ := scan_some osc_stops rest _ _ hb
        exact ⟨0x1B :: 0x5D :: body, v, rfl, .osc hc⟩
    rename_i n2
    split at h
    · rename_i h1
      have h1 : x1 ∈ [0x50, 0x58, 0x5E, 0x5F] := by
        simp only [List.mem_cons, List.not_mem_nil, or_false]
        rcases h1 with h1 | h1 | h1 | h1
        · exact .inl ((toNat_eq_iff (by decide)).mp h1)
        · exact .inr (.inl ((toNat_eq_iff (by decide)).mp h1))
        · exact .inr (.inr (.inl ((toNat_eq_iff (by decide)).mp h1)))
        · exact .inr (.inr (.inr ((toNat_eq_iff (by decide)).mp h1)))
      cases hb : stSequenceLength rest with
      | none => simp [hb] at h
      | some n =>
        rw [stSequenceLength, stLoop_eq] at hb
        obtain ⟨body, v, rfl, hc, _⟩ := scan_some st_stops rest _ _ hb
        exact ⟨0x1B :: x1 :: body, v, rfl, .str h1 hc⟩
    rename_i n3
    have two : byteIn 0x30 0x7E x1 → ∃ e v, 0x1B :: x1 :: rest = e ++ v ∧ Escape7 e v := by
      intro hc
      refine ⟨[0x1B, x1], rest, rfl, .two hc ?_⟩
      intro hm
      simp only [List.mem_cons, List.not_mem_nil, or_false] at hm
      rcases hm with rfl | rfl | rfl | rfl | rfl | rfl <;> revert n1 n2 n3 <;> decide
    split at h
    · rename_i h1
      exact two ⟨by omega, by omega⟩
    split at h
    · rename_i h1
      exact two ⟨by omega, by omega⟩
    split at h
    · rename_i h1
      obtain ⟨is, f, v, rfl, hi, hf, _⟩ := nfLoop_ne rfl h
      refine ⟨0x1B :: (x1 :: is) ++ [f], v, by simp, .nF (by simp) ?_ hf⟩
      intro b hb
      rcases List.mem_cons.mp hb with rfl | hb
      · exact h1
      · exact hi b hb
    · exact absurd rfl h

/-- The recogniser of 8-bit sequences returns the length of every escape sequence. -/
theorem ansiEscapeLength8Bit_of {e v : Bytes} (h : Escape8 e v) :
    ansiEscapeLength8Bit (e ++ v) = e.length := by
  cases h with
  | csi h =>
    simp only [List.cons_append, ansiEscapeLength8Bit]
    rw [if_pos (by decide), csiBodyLength, csiLoop_body h]
    have := controlSequence.length_pos h
    rw [if_neg (by omega)]; simp; omega
  | osc h =>
    simp only [List.cons_append, ansiEscapeLength8Bit]
    rw [if_neg (by decide), if_pos (by decide), oscLengthC1, oscLoopC1_eq, scan_body oscC1_stops h]
    simp; omega
  | str hc h =>
    rename_i c body
    have hs : c.toNat = 0x90 ∨ c.toNat = 0x98 ∨ c.toNat = 0x9E ∨ c.toNat = 0x9F := by
      simp at hc
      rcases hc with rfl | rfl | rfl | rfl <;> decide
    simp only [List.cons_append, ansiEscapeLength8Bit]
    rw [if_neg (by omega), if_neg (by omega), if_pos hs,
      stSequenceLengthC1, stLoopC1_eq, scan_body stC1_stops h]
    simp; omega
  | single hc hn =>
    rename_i c
    have h1 := hc.1; have h2 := hc.2
    have hs : ∀ k, k < 256 → UInt8.ofNat k ∈ [0x9B, 0x9D, 0x90, 0x98, 0x9E, 0x9F] → c.toNat ≠ k := by
      intro k hk hm h
      exact hn ((toNat_eq_iff hk).mp h ▸ hm)
    have e1 := hs 0x9B (by decide) (by decide)
    have e2 := hs 0x9D (by decide) (by decide)
    have e3 := hs 0x90 (by decide) (by decide)
    have e4 := hs 0x98 (by decide) (by decide)
    have e5 := hs 0x9E (by decide) (by decide)
    have e6 := hs 0x9F (by decide) (by decide)
    simp only [List.cons_append, ansiEscapeLength8Bit]
    rw [if_neg e1, if_neg e2, if_neg (by omega), if_pos (by omega)]; rfl

/-- Whatever the recogniser of 8-bit sequences accepts is an escape sequence. -/
theorem ansiEscapeLength8Bit_ne {d : Bytes} (h : ansiEscapeLength8Bit d ≠ 0) :
    ∃ e v, d = e ++ v ∧ Escape8 e v ∧ ansiEscapeLength8Bit d = e.length := by
  suffices ∃ e v, d = e ++ v ∧ Escape8 e v by
    obtain ⟨e, v, rfl, he⟩ := this
    exact ⟨e, v, rfl, he, ansiEscapeLength8Bit_of he⟩
  match d, h with
  | [], h => exact absurd rfl h
  | x1 :: rest, h =>
    simp only [ansiEscapeLength8Bit] at h
    split at h
    · rename_i h1
      have h1 : x1 = 0x9B := (toNat_eq_iff (by decide)).mp h1
      subst h1
      have hb : csiBodyLength rest ≠ 0 := fun hz => by simp [hz] at h
      obtain ⟨body, v, rfl, hc, _⟩ := csiLoop_false 0 rest _ rfl hb
      exact ⟨0x9B :: body, v, rfl, .csi hc⟩
    rename_i n1
    split at h
    · rename_i h1
      have h1 : x1 = 0x9D := (toNat_eq_iff (by decide)).mp h1
      subst h1
      cases hb : oscLengthC1 rest with
      | none => simp [hb] at h
      | some n =>
        rw [oscLengthC1, oscLoopC1_eq] at hb
        obtain ⟨body, v, rfl, hc, _⟩ := scan_some oscC1_stops rest _ _ hb
        exact ⟨0x9D :: body, v, rfl, .osc hc⟩
    rename_i n2
    split at h
    · rename_i h1
      have h1 : x1 ∈ [0x90, 0x98, 0x9E, 0x9F] := by
        simp only [List.mem_cons, List.not_mem_nil, or_false]
        rcases h1 with h1 | h1 | h1 | h1
        · exact .inl ((toNat_eq_iff (by decide)).mp h1)
        · exact .inr (.inl ((toNat_eq_iff (by decide)).mp h1))
        · exact .inr (.inr (.inl ((toNat_eq_iff (by decide)).mp h1)))
        · exact .inr (.inr (.inr ((toNat_eq_iff (by decide)).mp h1)))
      cases hb : stSequenceLengthC1 rest with
      | none => simp [hb] at h
      | some n =>
        rw [stSequenceLengthC1, stLoopC1_eq] at hb
        obtain ⟨body, v, rfl, hc, _⟩ := scan_some stC1_stops rest _ _ hb
        exact ⟨x1 :: body, v, rfl, .str h1 hc⟩
    rename_i n3
    split at h
    · rename_i h1
      refine ⟨[x1], rest, rfl, .single h1 ?_⟩
      intro hm
      simp only [List.mem_cons, List.not_mem_nil, or_false] at hm
      rcases hm with rfl | rfl | rfl | rfl | rfl | rfl <;> revert n1 n2 n3 <;> decide
    · exact absurd rfl h

end Uax29.Graphemes
