import Verif.Proofs.CostIter
/-! # Texts on which the ANSI options do quadratic work -/
namespace Uax29.Graphemes

/-- `ESC ]`, the start of an operating system command, `n` times. -/
def oscs : Nat → Bytes
  | 0 => []
  | n + 1 => 0x1B :: 0x5D :: oscs n

theorem oscs_length : ∀ n, (oscs n).length = 2 * n
  | 0 => rfl
  | n + 1 => by simp only [oscs, List.length_cons, oscs_length n]; omega

theorem oscs_loop : ∀ n i, oscLoopC i (oscs n) = (2 * n, none)
  | 0, _ => rfl
  | n + 1, i => by
    have h1 : isST7 0x1B (0x5D :: oscs n) = false := rfl
    have h2 : isST7 0x5D (oscs n) = false := rfl
    simp only [oscs, oscLoopC, h1, h2, oscs_loop n (i + 1 + 1), after]
    rw [if_neg (by decide), if_neg (by decide), if_neg (by decide), if_neg (by decide), if_neg (by decide),
      if_neg (by decide)]
    simp only [Prod.mk.injEq, and_true]
    omega

theorem oscs_escape (n : Nat) : ansiEscapeLengthC (oscs (n + 1)) = (2 * n, 0) := by
  simp only [oscs, ansiEscapeLengthC, oscs_loop]
  rfl

theorem oscs_tokens (o : Options) (ho : o.ansi7 = true) (n : Nat) : n * n ≤ (tokensC o (oscs n)).1 + n := by
  have h := collectC_inv (next_spec o good) (nextC := nextC splitFuncC o)
    (fun it hs => nextC_snd (fun d e => by rw [hs]; exact splitFuncC_snd d e) o)
    (fun it _ hp => nextC_done hp)
    (Q := fun d t => ∀ m, d = oscs m ∨ d = 0x5D :: oscs m → m * m ≤ t + m)
    (fun m hm => by
      rcases hm with hm | hm
      · cases m with
        | zero => simp
        | succ m => cases hm
      · cases hm)
    (fun it hs hp t ht m hm => by
      rcases hm with hm | hm
      · cases m with
        | zero =>
          have : (it.data.drop it.pos).length = 0 := by rw [hm]; rfl
          simp at this
          omega
        | succ m =>
          have hadv : adv o splitFunc (oscs (m + 1)) = 1 := by
            have h1 : ansiEscapeLength (oscs (m + 1)) = 0 := by
              rw [← ansiEscapeLengthC_snd, oscs_escape]
            simp only [oscs] at h1 ⊢
            simp only [adv, adv8, advPlain, ho, h1]
            simp [esc, Utf8.runeSelf, cr]
          rw [hm, hadv] at ht
          have h2 := ht m (.inr rfl)
          have h3 : 1 + 2 * m ≤ (nextC splitFuncC o it).1 := by
            have hn : ¬ it.pos ≥ it.data.length := by omega
            have hx : it.data[it.pos] = 0x1B := by
              have : it.data.drop it.pos = it.data[it.pos] :: it.data.drop (it.pos + 1) := by simp
              rw [hm] at this
              simp only [oscs, List.cons.injEq] at this
              exact this.1.symm
            simp only [nextC, if_neg hn, index_ok hp, hx, ho, sliceFrom_ok (Nat.le_of_lt hp), hm, oscs_escape]
            rw [if_pos (by decide), if_neg (by decide), after_fst]
            omega
          have e : (m + 1) * (m + 1) = m * m + 2 * m + 1 := by rw [Nat.mul_add, Nat.add_mul]; omega
          omega
      · have hadv : adv o splitFunc (0x5D :: oscs m) = 1 := by
          cases m <;> simp [adv, adv8, advPlain, oscs, esc, Utf8.runeSelf, cr]
        rw [hm, hadv] at ht
        have h2 := ht m (.inl rfl)
        omega)
    ((oscs n).length + 1) (fromBytes (oscs n)) rfl (Nat.zero_le _) (by simp [fromBytes])
  exact h n (.inl rfl)

/-- The C1 byte that starts an operating system command and a letter, `n` times. -/
def c1s : Nat → Bytes
  | 0 => []
  | n + 1 => 0x9D :: 0x61 :: c1s n

theorem c1s_length : ∀ n, (c1s n).length = 2 * n
  | 0 => rfl
  | n + 1 => by simp only [c1s, List.length_cons, c1s_length n]; omega

theorem c1s_loop : ∀ n i, oscLoopC1C i (c1s n) = (2 * n, none)
  | 0, _ => rfl
  | n + 1, i => by
    simp only [c1s, oscLoopC1C, c1s_loop n (i + 1 + 1), after]
    rw [if_neg (by decide), if_neg (by decide), if_neg (by decide), if_neg (by decide)]
    simp only [Prod.mk.injEq, and_true]
    omega

theorem c1s_escape (n : Nat) : ansiEscapeLength8BitC (c1s (n + 1)) = (2 * n + 1, 0) := by
  have : oscLoopC1C 0 (0x61 :: c1s n) = (2 * n + 1, none) := by
    simp only [oscLoopC1C, c1s_loop, after]
    rw [if_neg (by decide), if_neg (by decide)]
    simp only [Prod.mk.injEq, and_true]
    omega
  simp only [c1s, ansiEscapeLength8BitC, this]
  rfl

/-- Two pieces of one byte without properties are apart. -/
theorem splitAdv_two {x y : UInt8} {rest : Bytes} (hx : trie.lookup (x :: y :: rest) = .ok (0, 1))
    (hy : trie.lookup (y :: rest) = .ok (0, 1)) : splitAdv splitFunc (x :: y :: rest) = 1 := by
  have h0 : ¬ (x :: y :: rest).length = 0 := by simp
  have e0 : trie.lookupAt (x :: y :: rest) 0 = .ok (0, 1) := by rw [lookupAt_eq (Nat.zero_le _)]; exact hx
  have e1 : trie.lookupAt (x :: y :: rest) 1 = .ok (0, 1) := by rw [lookupAt_eq (by simp)]; exact hy
  have h1 : ¬ 1 = (x :: y :: rest).length := by simp
  have hs : ∀ s : State, s.pos = 1 → s.current = 0 → step (x :: y :: rest) true s = .brk 1 := by
    intro s hp hc
    simp only [step, hp, if_neg h1, e1, rules, hc]
    rfl
  simp only [splitAdv, splitFunc, if_neg h0, e0, if_neg (show ¬ (1 : Nat) = 0 by decide), loopFuel, runLoop]
  rw [hs _ rfl rfl]
  simp only [finish, sliceTo_ok (show 1 ≤ (x :: y :: rest).length by simp)]
  rfl

theorem lookup_9D (rest : Bytes) : trie.lookup (0x9D :: rest) = .ok (0, 1) := by
  simp only [Trie.lookup]
  rw [if_neg (by decide), if_pos (by decide)]

theorem lookup_61 (rest : Bytes) : trie.lookup (0x61 :: rest) = .ok (0, 1) := by
  have h1 : trie.ascii 0x61 = 0 := by decide +kernel
  rw [(wf.lookup_ascii (b := 0x61) (by decide) rest).1, h1]

theorem c1s_tokens (o : Options) (ho : o.ansi8 = true) (n : Nat) : n * n ≤ (tokensC o (c1s n)).1 + n := by
  have h := collectC_inv (next_spec o good) (nextC := nextC splitFuncC o)
    (fun it hs => nextC_snd (fun d e => by rw [hs]; exact splitFuncC_snd d e) o)
    (fun it _ hp => nextC_done hp)
    (Q := fun d t => ∀ m, d = c1s m ∨ d = 0x61 :: c1s m → m * m ≤ t + m)
    (fun m hm => by
      rcases hm with hm | hm
      · cases m with
        | zero => simp
        | succ m => cases hm
      · cases hm)
    (fun it hs hp t ht m hm => by
      rcases hm with hm | hm
      · cases m with
        | zero =>
          have : (it.data.drop it.pos).length = 0 := by rw [hm]; rfl
          simp at this
          omega
        | succ m =>
          have hadv : adv o splitFunc (c1s (m + 1)) = 1 := by
            have h1 : ansiEscapeLength8Bit (c1s (m + 1)) = 0 := by
              rw [← ansiEscapeLength8BitC_snd, c1s_escape]
            simp only [c1s] at h1 ⊢
            have h2 := splitAdv_two (lookup_9D (0x61 :: c1s m)) (lookup_61 (c1s m))
            simp only [adv, adv8, advPlain, ho, h1, h2]
            simp [esc, Utf8.runeSelf]
          rw [hm, hadv] at ht
          have h2 := ht m (.inr rfl)
          have h3 : 1 + 2 * m ≤ (nextC splitFuncC o it).1 := by
            have hn : ¬ it.pos ≥ it.data.length := by omega
            have hx : it.data[it.pos] = 0x9D := by
              have : it.data.drop it.pos = it.data[it.pos] :: it.data.drop (it.pos + 1) := by simp
              rw [hm] at this
              simp only [c1s, List.cons.injEq] at this
              exact this.1.symm
            have h7 : (o.ansi7 && (0x9D : UInt8).toNat == esc) = false := by
              cases o.ansi7 <;> decide
            simp only [nextC, if_neg hn, index_ok hp, hx, h7, Bool.false_eq_true, if_false, next8C, ho,
              sliceFrom_ok (Nat.le_of_lt hp), hm, c1s_escape, after_fst]
            rw [if_pos (by decide), if_neg (by decide), after_fst]
            omega
          have e : (m + 1) * (m + 1) = m * m + 2 * m + 1 := by rw [Nat.mul_add, Nat.add_mul]; omega
          omega
      · have hadv : adv o splitFunc (0x61 :: c1s m) = 1 := by
          cases m with
          | zero => simp [adv, adv8, advPlain, c1s, esc, Utf8.runeSelf, cr]
          | succ m =>
            have h2 := splitAdv_two (lookup_61 (0x9D :: 0x61 :: c1s m)) (lookup_9D (0x61 :: c1s m))
            simp only [adv, adv8, advPlain, c1s, h2]
            simp [esc, Utf8.runeSelf, cr]
        rw [hm, hadv] at ht
        have h2 := ht m (.inl rfl)
        omega)
    ((c1s n).length + 1) (fromBytes (c1s n)) rfl (Nat.zero_le _) (by simp [fromBytes])
  exact h n (.inl rfl)

theorem superlinear {f : Nat → Nat} {g : Nat → Bytes} (hf : ∀ n, n * n ≤ f n + n) (hg : ∀ n, (g n).length = 2 * n)
    (c : Nat) : c * (g (2 * c + 2)).length < f (2 * c + 2) := by
  have h := hf (2 * c + 2)
  rw [hg]
  have e1 : (2 * c + 2) * (2 * c + 2) = 2 * (c * (2 * c + 2)) + 2 * (2 * c + 2) := by
    rw [Nat.add_mul, Nat.mul_assoc]
  have e2 : c * (2 * (2 * c + 2)) = 2 * (c * (2 * c + 2)) := Nat.mul_left_comm _ _ _
  omega

/-! ## The upper bound -/

theorem csiLoopC_le : ∀ (d : Bytes) seen i, (csiLoopC seen i d).1 ≤ d.length
  | [], _, _ => Nat.le_refl _
  | x :: d, seen, i => by
    have h := csiLoopC_le d
    simp only [csiLoopC, List.length_cons]
    repeat' split
    all_goals first
      | (rw [after_fst]; have := h seen (i + 1); omega)
      | (rw [after_fst]; have := h true (i + 1); omega)
      | (simp only; omega)

theorem oscLoopC_le : ∀ (d : Bytes) i, (oscLoopC i d).1 ≤ d.length
  | [], _ => Nat.le_refl _
  | x :: d, i => by
    have h := oscLoopC_le d (i + 1)
    simp only [oscLoopC, List.length_cons]
    repeat' split
    all_goals first
      | (rw [after_fst]; omega)
      | (simp only; omega)

theorem stLoopC_le : ∀ (d : Bytes) i, (stLoopC i d).1 ≤ d.length
  | [], _ => Nat.le_refl _
  | x :: d, i => by
    have h := stLoopC_le d (i + 1)
    simp only [stLoopC, List.length_cons]
    repeat' split
    all_goals first
      | (rw [after_fst]; omega)
      | (simp only; omega)

theorem nfLoopC_le : ∀ (d : Bytes) i, (nfLoopC i d).1 ≤ d.length
  | [], _ => Nat.le_refl _
  | x :: d, i => by
    have h := nfLoopC_le d (i + 1)
    simp only [nfLoopC, List.length_cons]
    repeat' split
    all_goals first
      | (rw [after_fst]; omega)
      | (simp only; omega)

theorem oscLoopC1C_le : ∀ (d : Bytes) i, (oscLoopC1C i d).1 ≤ d.length
  | [], _ => Nat.le_refl _
  | x :: d, i => by
    have h := oscLoopC1C_le d (i + 1)
    simp only [oscLoopC1C, List.length_cons]
    repeat' split
    all_goals first
      | (rw [after_fst]; omega)
      | (simp only; omega)

theorem stLoopC1C_le : ∀ (d : Bytes) i, (stLoopC1C i d).1 ≤ d.length
  | [], _ => Nat.le_refl _
  | x :: d, i => by
    have h := stLoopC1C_le d (i + 1)
    simp only [stLoopC1C, List.length_cons]
    repeat' split
    all_goals first
      | (rw [after_fst]; omega)
      | (simp only; omega)

theorem ansiEscapeLengthC_le (d : Bytes) : (ansiEscapeLengthC d).1 ≤ d.length := by
  match d with
  | [] => exact Nat.le_refl _
  | [_] => exact Nat.zero_le _
  | x0 :: x1 :: rest =>
    have h1 := csiLoopC_le rest false 0
    have h2 := oscLoopC_le rest 0
    have h3 := stLoopC_le rest 0
    have h4 := nfLoopC_le rest 2
    simp only [ansiEscapeLengthC, List.length_cons]
    generalize csiLoopC false 0 rest = a at *
    generalize oscLoopC 0 rest = b at *
    generalize stLoopC 0 rest = c at *
    obtain ⟨a, a'⟩ := a
    obtain ⟨b, b'⟩ := b
    obtain ⟨c, c'⟩ := c
    simp only at h1 h2 h3
    cases b' <;> cases c' <;> simp only <;> (repeat' split) <;> (try simp only) <;> omega

theorem ansiEscapeLength8BitC_le (d : Bytes) : (ansiEscapeLength8BitC d).1 ≤ d.length := by
  match d with
  | [] => exact Nat.le_refl _
  | x0 :: rest =>
    have h1 := csiLoopC_le rest false 0
    have h2 := oscLoopC1C_le rest 0
    have h3 := stLoopC1C_le rest 0
    simp only [ansiEscapeLength8BitC, List.length_cons]
    generalize csiLoopC false 0 rest = a at *
    generalize oscLoopC1C 0 rest = b at *
    generalize stLoopC1C 0 rest = c at *
    obtain ⟨a, a'⟩ := a
    obtain ⟨b, b'⟩ := b
    obtain ⟨c, c'⟩ := c
    simp only at h1 h2 h3
    cases b' <;> cases c' <;> simp only <;> (repeat' split) <;> (try simp only) <;> omega

theorem splitFuncC_le (d : Bytes) (hd : d ≠ []) : (splitFuncC d true).1 ≤ 2 * d.length := by
  have h0 : Pot trie 0 0 (d.drop (splitAdv (fun d e => (splitFuncC d e).2) d)) 0 :=
    ⟨fun _ => rfl, fun _ _ _ => ⟨fun _ => by omega, fun _ k hk => by rw [ign_zero hk]; omega⟩⟩
  exact (potSplit d hd 0 h0).le wf (.inl rfl)

theorem nextPlainC_le {it : Iter} (hp : it.pos < it.data.length) (b : Nat) :
    (nextPlainC splitFuncC it b).1 ≤ 1 + 2 * (it.data.drop it.pos).length := by
  have h1 := callSplitC_fst (split := splitFuncC) (it := it) (Nat.le_of_lt hp)
  have h2 := splitFuncC_le (it.data.drop it.pos) (by simp; omega)
  simp only [nextPlainC]
  repeat' split
  all_goals first
    | (rw [after_fst]; omega)
    | (rw [h1]; omega)
    | (simp only; omega)

/-- The 8-bit parser runs only on bytes from 80 to 9F. -/
theorem next8C_le {it : Iter} (hp : it.pos < it.data.length) (o : Options) (b : Nat) :
    (next8C splitFuncC o it b).1 ≤ (if 0x80 ≤ b then (it.data.drop it.pos).length else 0)
      + (1 + 2 * (it.data.drop it.pos).length) := by
  have h1 := nextPlainC_le hp b
  have h2 := ansiEscapeLength8BitC_le (it.data.drop it.pos)
  simp only [next8C, sliceFrom_ok (Nat.le_of_lt hp)]
  by_cases hb : (o.ansi8 && decide (0x80 ≤ b) && decide (b ≤ 0x9F)) = true
  · rw [if_pos hb]
    have : 0x80 ≤ b := by
      simp only [Bool.and_eq_true, decide_eq_true_eq] at hb
      exact hb.1.2
    rw [if_pos this]
    generalize ansiEscapeLength8BitC (it.data.drop it.pos) = a at *
    obtain ⟨a, a'⟩ := a
    simp only at *
    split
    · simp only; omega
    · rw [after_fst]; omega
  · rw [if_neg hb]
    omega

theorem nextC_le {it : Iter} (hp : it.pos < it.data.length) (o : Options) :
    (nextC splitFuncC o it).1 ≤ 3 * (it.data.drop it.pos).length + 2 := by
  have h1 := fun b => next8C_le (it := { it with start := it.pos }) hp o b
  have h2 := ansiEscapeLengthC_le (it.data.drop it.pos)
  have hn : ¬ it.pos ≥ it.data.length := by omega
  simp only [nextC, if_neg hn, index_ok hp, sliceFrom_ok (Nat.le_of_lt hp)]
  by_cases hb : (o.ansi7 && it.data[it.pos].toNat == esc) = true
  · rw [if_pos hb]
    have hb' : it.data[it.pos].toNat = esc := by simp at hb; exact hb.2
    have h3 := h1 esc
    rw [if_neg (by decide)] at h3
    rw [hb']
    generalize ansiEscapeLengthC (it.data.drop it.pos) = a at *
    obtain ⟨a, a'⟩ := a
    simp only at *
    split
    · simp only; omega
    · rw [after_fst]; omega
  · rw [if_neg hb, after_fst]
    have h3 := h1 it.data[it.pos].toNat
    simp only at h3
    split at h3 <;> omega

theorem tokensC_quad (o : Options) (data : Bytes) :
    (tokensC o data).1 ≤ (3 * data.length + 2) * data.length := by
  have hn := next_spec o good
  have h := collectC_inv hn (nextC := nextC splitFuncC o)
    (fun it hs => nextC_snd (fun d e => by rw [hs]; exact splitFuncC_snd d e) o)
    (fun it _ hp => nextC_done hp)
    (Q := fun d t => d.length ≤ data.length → t ≤ (3 * data.length + 2) * d.length)
    (fun _ => Nat.zero_le _)
    (fun it hs hp t ht hN => by
      have h1 := nextC_le hp o
      have hd : it.data.drop it.pos ≠ [] := by simp; omega
      have hb1 := hn.adv_pos _ hd
      generalize it.data.drop it.pos = d at *
      have ht := ht (by simp only [List.length_drop]; omega)
      have h0 := List.length_pos_iff.mpr hd
      have h3 : (3 * data.length + 2) * (d.drop (adv o splitFunc d)).length
          ≤ (3 * data.length + 2) * (d.length - 1) :=
        Nat.mul_le_mul_left _ (by simp only [List.length_drop]; omega)
      have h4 : (3 * data.length + 2) * d.length
          = (3 * data.length + 2) * (d.length - 1) + (3 * data.length + 2) := by
        rw [← Nat.mul_succ]; congr 1; omega
      omega)
    (data.length + 1) (fromBytes data) rfl (Nat.zero_le _) (by simp [fromBytes])
  exact h (Nat.le_refl _)

end Uax29.Graphemes
