import Verif.Proofs.Boundaries
import Verif.Spec.Replace
/-! # Rules that do not tell characters from what they are replaced by -/
namespace Uax29
open Spec

variable {α β : Type} {f : α → List β}

theorem expand_append (a b : List α) : expand f (a ++ b) = expand f a ++ expand f b := by simp [expand]

theorem expand_cons (c : α) (s : List α) : expand f (c :: s) = f c ++ expand f s := by simp [expand]

theorem expand_nil (hf : ∀ c, f c ≠ []) {s : List α} (h : expand f s = []) : s = [] := by
  cases s with
  | nil => rfl
  | cons c s => rw [expand_cons, List.append_eq_nil_iff] at h; exact absurd h.1 (hf c)

theorem expand_flatten (ts : List (List α)) : expand f ts.flatten = (ts.map (expand f)).flatten := by
  induction ts with
  | nil => rfl
  | cons t ts ih => rw [List.flatten_cons, expand_append, ih]; rfl

/-- A position in a text after replacement is one of the text, or it is within a replacement. -/
theorem expand_split : ∀ {s : List α} {a b : List β}, expand f s = a ++ b →
    (∃ a' b', s = a' ++ b' ∧ a = expand f a' ∧ b = expand f b')
    ∨ ∃ a' c b' x y, s = a' ++ c :: b' ∧ a = expand f a' ++ x ∧ b = y ++ expand f b' ∧ f c = x ++ y
      ∧ x ≠ [] ∧ y ≠ []
  | [], a, b, h => by
    have : a = [] ∧ b = [] := by simpa [expand] using h.symm
    exact .inl ⟨[], [], rfl, this.1, this.2⟩
  | c :: s, a, b, h => by
    rw [expand_cons] at h
    rcases List.append_eq_append_iff.mp h with ⟨m, h1, h2⟩ | ⟨m, h1, h2⟩
    · rcases expand_split h2 with ⟨a', b', rfl, rfl, rfl⟩ | ⟨a', d, b', x, y, rfl, rfl, rfl, h5⟩
      · exact .inl ⟨c :: a', b', rfl, by rw [expand_cons, h1], rfl⟩
      · exact .inr ⟨c :: a', d, b', x, y, rfl, by rw [expand_cons, h1, List.append_assoc], rfl, h5⟩
    · by_cases ha : a = []
      · subst ha
        exact .inl ⟨[], c :: s, rfl, rfl, by rw [expand_cons, h2, h1]; rfl⟩
      by_cases hm : m = []
      · subst hm
        exact .inl ⟨[c], s, rfl, by simp [expand, h1], by simpa using h2⟩
      · exact .inr ⟨[], c, s, a, m, rfl, rfl, h2, h1, ha, hm⟩

/-- Rules that do not tell a character from its replacement; the characters of the first text have the kinds `cl₀`,
those of the second one `cl`. -/
structure Replacing {α β : Type} (f : α → List β) {K : Type} (J : List K → List K → Bool) (cl₀ : α → K) (cl : β → K) :
    Prop where
  ne : ∀ c, f c ≠ []
  /-- With a character before the position as with its replacement. -/
  left : ∀ c B A C, J (B ++ (((f c).map cl).reverse ++ A)) C = J (B ++ cl₀ c :: A) C
  /-- Before a text as before the text after replacement. -/
  right : ∀ L b, J L ((expand f b).map cl) = J L (b.map cl₀)
  /-- Never within a replacement. -/
  inside : ∀ c x y, f c = x ++ y → x ≠ [] → y ≠ [] → ∀ A C, J ((x.map cl).reverse ++ A) (y.map cl ++ C) = true

variable {K : Type} {J : List K → List K → Bool} {cl₀ : α → K} {cl : β → K}

theorem Replacing.before (h : Replacing f J cl₀ cl) (a : List α) (C : List K) :
    J ((expand f a).map cl).reverse C = J (a.map cl₀).reverse C := by
  have key : ∀ a A, J (((expand f a).map cl).reverse ++ A) C = J ((a.map cl₀).reverse ++ A) C := by
    intro a
    induction a with
    | nil => intro A; rfl
    | cons c a ih =>
      intro A
      rw [expand_cons, List.map_append, List.reverse_append, List.append_assoc, ih, h.left]
      simp
  simpa using key a []

/-- The break between two texts, for rules that join. -/
def breakOf (J : List K → List K → Bool) (before after : List K) : Bool :=
  before.isEmpty || after.isEmpty || !J before.reverse after

theorem Replacing.tokens (h : Replacing f J cl₀ cl) {s : List α} {ts : List (List α)} {us : List (List β)}
    (h1 : ts.flatten = s) (h2 : ∀ t ∈ ts, t ≠ [])
    (h3 : ∀ a b, s = a ++ b → (Boundary ts a ↔ breakOf J (a.map cl₀) (b.map cl₀) = true))
    (k1 : us.flatten = expand f s) (k2 : ∀ t ∈ us, t ≠ [])
    (k3 : ∀ a b, expand f s = a ++ b → (Boundary us a ↔ breakOf J (a.map cl) (b.map cl) = true)) :
    us = ts.map (expand f) := by
  apply boundary_unique
  · rw [k1, ← expand_flatten, h1]
  · exact k2
  · intro u hu
    obtain ⟨t, ht, rfl⟩ := List.mem_map.mp hu
    exact fun h0 => h2 t ht (expand_nil h.ne h0)
  · intro a b hab
    rw [k1] at hab
    rw [k3 a b hab]
    have hmap : ∀ n, ((ts.map (expand f)).take n).flatten = expand f (ts.take n).flatten := by
      intro n
      rw [← List.map_take, expand_flatten]
    have hts : ∀ n, (ts.take n).flatten ++ (ts.drop n).flatten = s := by
      intro n
      rw [← List.flatten_append, List.take_append_drop, h1]
    rcases expand_split hab with ⟨a', b', hs, rfl, rfl⟩ | ⟨a', c, b', x, y, hs, rfl, rfl, hd, hx, hy⟩
    · have e1 : breakOf J ((expand f a').map cl) ((expand f b').map cl) = breakOf J (a'.map cl₀) (b'.map cl₀) := by
        unfold breakOf
        rw [h.before, h.right]
        have hE : ∀ l : List α, ((expand f l).map cl).isEmpty = (l.map cl₀).isEmpty := by
          intro l
          cases l with
          | nil => rfl
          | cons c l =>
            have : expand f (c :: l) ≠ [] := fun h0 => by cases expand_nil h.ne h0
            cases hd : expand f (c :: l) with
            | nil => exact absurd hd this
            | cons => rfl
        rw [hE, hE]
      rw [e1, ← h3 a' b' hs]
      constructor
      · rintro ⟨n, rfl⟩
        exact ⟨n, hmap n⟩
      · rintro ⟨n, ea⟩
        refine ⟨n, ?_⟩
        rw [hmap] at ea
        rw [← hts n] at hs
        rcases List.append_eq_append_iff.mp hs with ⟨m, h4, h5⟩ | ⟨m, h4, h5⟩
        · rw [h4, expand_append] at ea
          have : expand f m = [] := by simpa using ea
          rw [h4, expand_nil h.ne this, List.append_nil]
        · rw [h4, expand_append] at ea
          have : expand f m = [] := by simpa using ea.symm
          rw [h4, expand_nil h.ne this, List.append_nil]
    · have e1 : breakOf J ((expand f a' ++ x).map cl) ((y ++ expand f b').map cl) = false := by
        have := h.inside c x y hd hx hy ((expand f a').map cl).reverse ((expand f b').map cl)
        simp only [breakOf, List.map_append, List.reverse_append, this]
        simp [hx, hy]
      rw [e1]
      refine ⟨fun h => (by cases h), ?_⟩
      rintro ⟨n, ea⟩
      exfalso
      rw [hmap] at ea
      rw [← hts n] at hs
      have hl := congrArg List.length ea
      have hdl := congrArg List.length hd
      rw [List.length_append] at hl hdl
      have hx' := List.length_pos_iff.mpr hx
      have hy' := List.length_pos_iff.mpr hy
      rcases List.append_eq_append_iff.mp hs with ⟨m, h4, h5⟩ | ⟨m, h4, h5⟩
      · rw [h4, expand_append, List.length_append] at hl
        omega
      · cases m with
        | nil => rw [h4, List.append_nil] at hl; omega
        | cons d m =>
          obtain ⟨rfl, rfl⟩ : c = d ∧ b' = m ++ (ts.drop n).flatten := by simpa using h5
          rw [h4, expand_append, expand_cons, List.length_append, List.length_append] at hl
          omega

end Uax29
