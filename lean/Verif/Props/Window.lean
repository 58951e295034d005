import Verif.Props.Append
import Verif.Props.Scanner
import Verif.Proofs.WindowPhrases
import Verif.Proofs.WindowSentences
/-! # Streams of any length: C75 -/
namespace Uax29
open Spec Scanner

theorem window_splitOf (p : Pkg) (c : Config p) (data e : Bytes) (h : splitOf p c data false = .ok .requestMore) :
    data.length ≤ splitAdv (splitOf p c) (data ++ e) + 3
    ∨ (unsettled p = 2 ∧ splitAdv (splitOf p c) (data ++ e) < (data ++ e).length
      ∧ data.length ≤ splitAdv (splitOf p c) (data ++ e)
        + splitAdv (splitOf p c) ((data ++ e).drop (splitAdv (splitOf p c) (data ++ e))) + 3) := by
  cases p with
  | graphemes => exact .inl (Graphemes.window data e h)
  | words => exact (Words.window c data e h).imp id (fun h => ⟨rfl, h⟩)
  | phrases => exact (Phrases.window data e h).imp id (fun h => ⟨rfl, h⟩)
  | sentences => exact (Sentences.window data e h).imp id (fun h => ⟨rfl, h⟩)

/-- The last tokens of a text are the tokens of what they make. -/
theorem splits_last {f : SplitFn} : ∀ {ts ts' : List Bytes} {text : Bytes}, Splits f text (ts ++ ts') → Splits f ts'.flatten ts' := by
  have fl : ∀ {text : Bytes} {ts : List Bytes}, Splits f text ts → text = ts.flatten := by
    intro text ts h
    induction h with
    | nil => rfl
    | cons _ _ _ ih => rw [List.flatten_cons, ← ih]
  intro ts
  induction ts with
  | nil => intro ts' text h; have h : Splits f text ts' := h; rw [← fl h]; exact h
  | cons t ts ih =>
    intro ts' text h
    cases h with
    | cons _ _ h => exact ih h

theorem splits_adv {f : SplitFn} {t text : Bytes} {ts : List Bytes} (h : Splits f text (t :: ts)) :
    splitAdv f text = t.length ∧ Splits f (text.drop t.length) ts ∧ text.length = t.length + (text.drop t.length).length := by
  cases h with
  | cons _ h1 h2 => exact ⟨by simp [splitAdv, h1], by simpa using h2, by simp⟩

/-- **C75** A scanner over a reader that reports its error after its last bytes. It holds at most
`max n m` bytes. It yields the tokens of all the bytes delivered, one by one, and then shows the reader's
error. It stops with `ErrTooLong` before a token exactly if that many bytes, or more, are still to come and
the split function asks for more when it has that many. -/
theorem C75_exact (p : Pkg) (c : Config p) (r : Reader) (n m : Nat) (hr : Late r) :
    ∃ all ts err, Splits (splitOf p c) (deliver 0 r).1 all ∧ Scanner.tokens (scanner p c r n m) = .ok (ts, err)
      ∧ Scanned (Undecided (splitOf p c) (max n m)) (Undecided (splitOf p c) (max n m)) (shownErr (deliver 0 r).2) all ts err := by
  obtain ⟨ts, err, h1, h2⟩ := tokens_exact (splitOf p c) (splitOf_good p c) (splitOf_stable p c) r n m True (fun _ => hr)
  refine ⟨_, ts, err, (splits_iff (splitOf_good p c)).2 rfl, h1, ?_⟩
  have : (fun rem => Undecided (splitOf p c) (max n m) rem ∧ (True ∨ max n m < rem.length)) = Undecided (splitOf p c) (max n m) :=
    funext fun rem => by simp
  rwa [this] at h2

/-- The same for any reader. Only if the bytes still to come are exactly as many as the buffer holds, the
scanner may stop or go on: it depends on whether the error comes with the last of them. -/
theorem C75_reader (p : Pkg) (c : Config p) (r : Reader) (n m : Nat) :
    ∃ all ts err, Splits (splitOf p c) (deliver 0 r).1 all ∧ Scanner.tokens (scanner p c r n m) = .ok (ts, err)
      ∧ Scanned (Undecided (splitOf p c) (max n m)) (fun rem => Undecided (splitOf p c) (max n m) rem ∧ max n m < rem.length)
        (shownErr (deliver 0 r).2) all ts err := by
  obtain ⟨ts, err, h1, h2⟩ := tokens_exact (splitOf p c) (splitOf_good p c) (splitOf_stable p c) r n m False False.elim
  refine ⟨_, ts, err, (splits_iff (splitOf_good p c)).2 rfl, h1, ?_⟩
  simpa using h2

-- the error with the last bytes, and after them
example : Scanner.tokens (scanner .words none [([0x20, 0x61, 0x62], some .eof)] 0 2) = .ok ([[0x20], [0x61, 0x62]], none)
  ∧ Scanner.tokens (scanner .words none [([0x20, 0x61, 0x62], none)] 0 2) = .ok ([[0x20]], some .tooLong) := by decide +kernel
-- "ab" is not decided, as letters may follow; of " ab" the first two bytes give the space
example : Undecided (splitOf .words none) 2 [0x61, 0x62] ∧ ¬ Undecided (splitOf .words none) 2 [0x20, 0x61, 0x62] := by
  simp only [Undecided]; decide +kernel

/-- **C75** However long the stream is, the scanner yields all tokens and the reader's error, if any two
tokens in a row (for graphemes: each token), and three bytes more, take less than the buffer may hold. -/
theorem C75_short (p : Pkg) (c : Config p) (r : Reader) (n m : Nat) (all : List Bytes)
    (h : Splits (splitOf p c) (deliver 0 r).1 all)
    (hs : ∀ k, ((all.drop k).take (unsettled p)).flatten.length + 3 < max n m) :
    Scanner.tokens (scanner p c r n m) = .ok (all, shownErr (deliver 0 r).2) := by
  obtain ⟨ts, err, h1, h2⟩ := tokens_exact (splitOf p c) (splitOf_good p c) (splitOf_stable p c) r n m False False.elim
  rw [← (splits_iff (splitOf_good p c)).1 h] at h2
  have h1 : Scanner.tokens (scanner p c r n m) = .ok (ts, err) := h1
  rw [h1]
  rcases scanned_prefix h2 with ⟨rfl, rfl⟩ | ⟨_, ts', rfl, h3⟩
  · rfl
  · exfalso
    have hs := hs ts.length
    rw [List.drop_left] at hs
    have h4 := splits_last h
    have hl : (List.take (max n m) ts'.flatten).length = max n m := by rw [List.length_take]; have := h3.1; omega
    have h5 := window_splitOf p c (ts'.flatten.take (max n m)) (ts'.flatten.drop (max n m)) h3.2
    rw [List.take_append_drop, hl] at h5
    have h6 := h3.1
    generalize ts'.flatten = text at h4 h5 h6
    cases h4 with
    | nil => simp at h6; omega
    | @cons t rest ts' hne h7 h8 =>
      have ha := (splits_adv (.cons hne h7 h8)).1
      rw [ha] at h5
      have hu : 1 ≤ unsettled p := by cases p <;> decide
      rcases h5 with h5 | ⟨h5, h9, h10⟩
      · obtain ⟨u, hu⟩ := Nat.exists_eq_add_of_le hu
        rw [hu, Nat.add_comm 1 u, List.take_succ_cons, List.flatten_cons, List.length_append] at hs
        omega
      · rw [h5] at hs
        rw [List.drop_left] at h10
        rw [List.length_append] at h9
        cases h8 with
        | nil => simp at h9
        | @cons t' rest' ts'' hne' h7' h8' =>
          have ha' := (splits_adv (.cons hne' h7' h8')).1
          rw [ha'] at h10
          simp at hs
          omega

-- sixteen characters with a buffer that holds five bytes
example (s : List (Bytes × Option Err)) (hs : s = List.replicate 15 ([0x61], none) ++ [([0x21], none)])
    : Scanner.tokens (scanner .graphemes ⟨false, false⟩ s 0 5) = .ok (List.replicate 15 [0x61] ++ [[0x21]], none) := by
  subst hs
  exact C75_short .graphemes ⟨false, false⟩ _ 0 5 _ ((splits_iff (splitOf_good _ _)).2 (by decide +kernel)) (by
    intro k
    have : ∀ x ∈ (List.replicate 15 [0x61] ++ [[0x21]] : List Bytes), x.length = 1 := by decide +kernel
    have h2 : ∀ l : List Bytes, (∀ x ∈ l, x.length = 1) → (l.take 1).flatten.length ≤ 1 := by
      intro l hl
      cases l with
      | nil => simp
      | cons x l => simpa using Nat.le_of_eq (hl x (by simp))
    have := h2 (List.drop k _) (fun x hx => this x (List.mem_of_mem_drop hx))
    show (List.take 1 _).flatten.length + 3 < 5
    omega)
-- three bytes less do not do: a character of four bytes is not seen, and with it the end of the token
example : Scanner.tokens (scanner .graphemes ⟨false, false⟩ [([0x61, 0xF0, 0x9F, 0x98, 0x80], none)] 0 4) = .ok ([], some .tooLong)
  ∧ Scanner.tokens (scanner .graphemes ⟨false, false⟩ [([0x61, 0xF0, 0x9F, 0x98, 0x80], none)] 0 5)
      = .ok ([[0x61], [0xF0, 0x9F, 0x98, 0x80]], none)
  ∧ Scanner.tokens (scanner .words none [([0x61, 0x2E, 0xF0, 0x9F, 0x98, 0x80], none)] 0 5) = .ok ([], some .tooLong)
  ∧ Scanner.tokens (scanner .words none [([0x61, 0x2E, 0xF0, 0x9F, 0x98, 0x80], none)] 0 6)
      = .ok ([[0x61], [0x2E], [0xF0, 0x9F, 0x98, 0x80]], none) := by decide +kernel
-- "A. 111B": the first sentence has three bytes, but what follows it is looked at up to the letter
example : Scanner.tokens (scanner .sentences () [([0x41, 0x2E, 0x20, 0x31, 0x31, 0x31, 0x42], none)] 0 6) = .ok ([], some .tooLong)
  ∧ Scanner.tokens (scanner .sentences () [([0x41, 0x2E, 0x20, 0x31, 0x31, 0x31, 0x42], none)] 0 8)
      = .ok ([[0x41, 0x2E, 0x20], [0x31, 0x31, 0x31, 0x42]], none) := by decide +kernel

/-- A scanner on which `Buffer` is not called, as `FromReader` gives it: 65536 bytes. -/
theorem C75_default (p : Pkg) (c : Config p) (r : Reader) (all : List Bytes) (h : Splits (splitOf p c) (deliver 0 r).1 all)
    (hs : ∀ k, ((all.drop k).take (unsettled p)).flatten.length + 3 < 65536) :
    Scanner.tokens (new (splitOf p c) r) = .ok (all, shownErr (deliver 0 r).2) :=
  C75_short p c r 0 65536 all h hs

/-- **C75** A token that is longer than the buffer may be does not get out: the scanner stops with
`ErrTooLong` before it or earlier. -/
theorem C75_long (p : Pkg) (c : Config p) (r : Reader) (n m : Nat) (before after : List Bytes) (t : Bytes)
    (h : Splits (splitOf p c) (deliver 0 r).1 (before ++ t :: after)) (ht : max n m < t.length) :
    ∃ ts, Scanner.tokens (scanner p c r n m) = .ok (ts, some .tooLong) ∧ ts <+: before := by
  obtain ⟨ts, err, h1, h2⟩ := tokens_exact (splitOf p c) (splitOf_good p c) (splitOf_stable p c) r n m False False.elim
  rw [← (splits_iff (splitOf_good p c)).1 h] at h2
  have hu : Undecided (splitOf p c) (max n m) (t :: after).flatten ∧ max n m < (t :: after).flatten.length := by
    have h4 : Splits (splitOf p c) (t :: after).flatten (t :: after) := splits_last h
    have ha := (splits_adv h4).1
    have hlen : max n m < (t :: after).flatten.length := by rw [List.flatten_cons, List.length_append]; omega
    refine ⟨⟨Nat.le_of_lt hlen, ?_⟩, hlen⟩
    generalize (t :: after).flatten = text at ha hlen
    rcases splitOf_good p c (text.take (max n m)) false with ⟨h5, _⟩ | ⟨k, hk1, hk2, h5⟩
    · exact h5
    · exfalso
      have h6 := splitOf_stable p c _ (text.drop (max n m)) true _ _ h5
      rw [List.take_append_drop] at h6
      rw [List.length_take] at hk2
      simp [splitAdv, h6] at ha
      omega
  have key : ∀ {all out : List Bytes} {e : Option Err},
      Scanned (Undecided (splitOf p c) (max n m)) (fun rem => Undecided (splitOf p c) (max n m) rem ∧ (False ∨ max n m < rem.length))
        (shownErr (deliver 0 r).2) all out e → ∀ before, all = before ++ t :: after → e = some .tooLong ∧ out <+: before := by
    intro all out e hsc
    induction hsc with
    | full _ => intro before hb; cases before <;> cases hb
    | tooLong _ => intro before _; exact ⟨rfl, List.nil_prefix⟩
    | @next t' ts' out' r' hn _ ih =>
      intro before hb
      cases before with
      | nil =>
        cases hb
        exact absurd ⟨hu.1, .inr hu.2⟩ hn
      | cons b before =>
        cases hb
        obtain ⟨h5, h6⟩ := ih before rfl
        exact ⟨h5, List.cons_prefix_cons.mpr ⟨rfl, h6⟩⟩
  obtain ⟨h5, h6⟩ := key h2 before rfl
  exact ⟨ts, by rw [← h5]; exact h1, h6⟩

-- "a b" gets out before "cde", with two bytes for a token, unless it is not decided in time
example : Scanner.tokens (scanner .words none [([0x61, 0x20, 0x63, 0x64, 0x65], none)] 0 2) = .ok ([[0x61], [0x20]], some .tooLong) := by
  decide +kernel

end Uax29
