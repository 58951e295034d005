import Verif.Spec.Reader
import Verif.Proofs.Splits
/-! # The scanner -/
namespace Uax29.Scanner
open Spec

theorem size_cons (bs : Bytes) (e : Option Err) (r : Reader) :
    Reader.size ((bs, e) :: r) = bs.length + Reader.size r := by simp [Reader.size]

theorem deliver_size : ∀ (r : Reader) (k : Nat), (deliver k r).1.length ≤ Reader.size r
  | [], k => by simp [deliver, Reader.size]
  | (bs, some e) :: rest, k => by rw [size_cons]; simp [deliver]
  | (bs, none) :: rest, k => by
    have h1 := deliver_size rest 0
    have h2 := deliver_size rest (k + 1)
    rw [size_cons]
    simp only [deliver]
    repeat' split
    all_goals simp
    all_goals omega

/-- The buffer may grow to `N` bytes. -/
def Cap (N : Nat) (s : State) : Prop := N = max s.bufLen s.maxTokenSize

theorem Cap.le {N : Nat} {s : State} (h : Cap N s) : s.bufLen ≤ N := by unfold Cap at h; omega

/-- The scanner still has to give the tokens of `rem` and then to report `e`. Its buffer may grow to `N`
bytes, and if `L` then the reader is late. -/
structure Inv (N : Nat) (L : Prop) (s : State) (rem : Bytes) (e : Err) : Prop where
  fits : s.end' ≤ s.bufLen
  cap : Cap N s
  late : L → Late s.reader
  failed : s.err ≠ none → 0 < N ∧ (L → s.window.length < N)
  rest : (s.err = none ∧ rem = s.window ++ (deliver 0 s.reader).1 ∧ e = (deliver 0 s.reader).2)
    ∨ (s.err = some e ∧ rem = s.window)

/-- What stays the same. -/
def Same (s s' : State) : Prop := s'.split = s.split ∧ s'.maxTokenSize = s.maxTokenSize

theorem Same.refl (s : State) : Same s s := ⟨rfl, rfl⟩
theorem Same.trans {a b c : State} (h : Same a b) (h' : Same b c) : Same a c :=
  ⟨h'.1.trans h.1, h'.2.trans h.2⟩

/-- The number of passes still possible without a result. -/
def todo (s : State) : Nat := Reader.size s.reader + if s.err = none then 1 else 0

theorem setErr_none {s : State} (h : s.err = none) (e : Err) : s.setErr e = { s with err := some e } := by
  simp [State.setErr, h]

theorem late_tail {p : Bytes × Option Err} {r : Reader} (h : Late (p :: r)) : Late r :=
  fun q hq => h q (List.mem_cons_of_mem _ hq)

theorem readLoop_ok (N : Nat) (L : Prop) : ∀ k loop s rem e, Cap N s → (L → Late s.reader) → s.err = none → s.end' < s.bufLen → loop ≤ 100 →
    101 ≤ loop + k → rem = s.window ++ (deliver loop s.reader).1 → e = (deliver loop s.reader).2 →
    Inv N L (readLoop k loop s) rem e ∧ Same s (readLoop k loop s) ∧ todo (readLoop k loop s) < todo s := by
  intro k
  induction k with
  | zero => intro loop s rem e _ _ _ _ h1 h2; omega
  | succ k ih =>
    intro loop s rem e hcap hlate herr hlt hl hk hrem he
    have hle := hcap.le
    have hlt' := hlt
    simp only [State.end'] at hlt'
    have hfail : 0 < N ∧ (L → s.window.length < N) := ⟨by omega, fun _ => by omega⟩
    simp only [readLoop]
    match hr : s.reader with
    | [] =>
      simp only [read, List.append_nil]
      rw [setErr_none (by exact herr)]
      simp only [hr, deliver, List.append_nil] at hrem he
      refine ⟨⟨by simp [State.end'] at hlt ⊢; omega, hcap, fun _ _ h => (by cases h), fun _ => hfail,
        .inr ⟨by simp [he], hrem⟩⟩, ⟨rfl, rfl⟩, ?_⟩
      simp [todo, herr, hr, Reader.size]
    | (bs, oe) :: rest =>
      simp only [State.end'] at hlt
      by_cases hb : bs.length ≤ s.bufLen - s.end'
      · have hb' := hb
        simp only [State.end'] at hb'
        simp only [read, if_pos hb]
        cases oe with
        | some e' =>
          simp only
          rw [setErr_none (by exact herr)]
          simp only [hr, deliver] at hrem he
          refine ⟨⟨?_, hcap, fun hL => late_tail (hr ▸ hlate hL), fun _ => ⟨hfail.1, fun hL => ?_⟩,
            .inr ⟨by simp [he], hrem⟩⟩, ⟨rfl, rfl⟩, ?_⟩
          · simp [State.end']; omega
          · have := (hr ▸ hlate hL) (bs, some e') List.mem_cons_self (by simp)
            simp only at this
            rw [this, List.append_nil]
            exact hfail.2 hL
          · simp [todo, herr, hr, size_cons]; omega
        | none =>
          simp only
          by_cases h0 : bs = []
          · subst h0
            simp only [List.length_nil, Nat.lt_irrefl, if_false, List.append_nil, gt_iff_lt]
            simp only [hr, deliver, if_true] at hrem he
            by_cases hle : maxConsecutiveEmptyReads < loop + 1
            · have hl100 : loop = 100 := by simp [maxConsecutiveEmptyReads] at hle; omega
              simp only [if_pos hle]
              rw [setErr_none (by exact herr)]
              simp only [hl100, if_true, List.append_nil] at hrem he
              refine ⟨⟨by simp [State.end']; omega, hcap, fun hL => late_tail (hr ▸ hlate hL), fun _ => hfail,
                .inr ⟨by simp [he], hrem⟩⟩, ⟨rfl, rfl⟩, ?_⟩
              simp [todo, herr, hr, size_cons]
            · have hl100 : loop ≠ 100 := by simp [maxConsecutiveEmptyReads] at hle; omega
              simp only [if_neg hle]
              simp only [if_neg hl100] at hrem he
              have := ih (loop + 1) { s with reader := rest } rem e hcap
                (fun hL => late_tail (hr ▸ hlate hL)) herr (by simp [State.end']; omega)
                (by omega) (by omega) hrem he
              refine ⟨this.1, this.2.1, ?_⟩
              have h3 := this.2.2
              simp only [todo] at h3 ⊢
              rw [hr, size_cons]
              simp only [List.length_nil, Nat.zero_add]
              exact h3
          · have hpos : 0 < bs.length := List.length_pos_iff.mpr h0
            simp only [gt_iff_lt, if_pos hpos]
            simp only [hr, deliver, if_neg h0] at hrem he
            refine ⟨⟨by simp [State.end']; omega, hcap, fun hL => late_tail (hr ▸ hlate hL),
              fun h => absurd herr h, .inl ⟨herr, ?_, he⟩⟩, ⟨rfl, rfl⟩, ?_⟩
            · simp [hrem]
            · simp [todo, herr, hr, size_cons]; omega
      · have hb' := hb
        simp only [State.end'] at hb'
        simp only [read, if_neg hb]
        have hn : 0 < s.bufLen - s.end' := by simp [State.end']; omega
        have hpos : (bs.take (s.bufLen - s.end')).length > 0 := by simp; omega
        simp only [if_pos hpos]
        generalize hn' : s.bufLen - s.end' = n at *
        have hbs : bs ≠ [] := by intro h; simp [h] at hb
        have hdr : bs.drop n ≠ [] := by simp; omega
        refine ⟨⟨?_, hcap, fun hL p hp hne => ?_, fun h => absurd herr h, .inl ⟨herr, ?_, ?_⟩⟩, ⟨rfl, rfl⟩, ?_⟩
        · simp [State.end'] at hn' ⊢; omega
        · have h := hr ▸ hlate hL
          rcases List.mem_cons.mp hp with rfl | hp
          · exact absurd (h (bs, oe) List.mem_cons_self hne) hbs
          · exact late_tail h p hp hne
        · simp only [hr] at hrem
          rw [hrem]
          cases oe with
          | some e' => simp [deliver]
          | none =>
            simp only [deliver, if_neg hbs, if_neg hdr, List.append_assoc]
            rw [← List.append_assoc (bs.take n), List.take_append_drop]
        · simp only [hr] at he
          rw [he]
          cases oe with
          | some e' => simp [deliver]
          | none => simp only [deliver, if_neg hbs, if_neg hdr]
        · simp only [todo, herr, hr, size_cons, List.length_drop]
          simp; omega

/-- What a pass or a scan may do. -/
inductive Good (N : Nat) (L : Prop) (s : State) (rem : Bytes) (e : Err) : Bool → State → Prop
  | token (s' : State) (tok : Bytes) (hrem : rem ≠ []) (htok : s'.token = some tok)
      (heq : tok = rem.take (splitAdv s.split rem)) (hgo : ¬ (Undecided s.split N rem ∧ (L ∨ N < rem.length)))
      (hinv : Inv N L s' (rem.drop (splitAdv s.split rem)) e) (hsame : Same s s') : Good N L s rem e true s'
  | done (s' : State) (hrem : rem = []) (hpos : 0 < N) (herr : s'.err = some e) : Good N L s rem e false s'
  | tooLong (s' : State) (herr : s'.err = some .tooLong) (hu : Undecided s.split N rem) :
      Good N L s rem e false s'

/-- What a pass may do. -/
def GoodPass (N : Nat) (L : Prop) (s : State) (rem : Bytes) (e : Err) : Pass → Prop
  | .ret b s' => Good N L s rem e b s'
  | .cont s' => Inv N L s' rem e ∧ Same s s' ∧ todo s' < todo s
  | .fault _ => False

theorem Good.of_same {N : Nat} {L : Prop} {s s' : State} {rem : Bytes} {e : Err} {b : Bool} {s'' : State}
    (h : Same s s') (hg : Good N L s' rem e b s'') : Good N L s rem e b s'' := by
  cases hg with
  | token _ tok hrem htok heq hgo hinv hsame =>
    exact .token _ tok hrem htok (by rw [heq, h.1]) (by rw [← h.1]; exact hgo) (by rw [← h.1]; exact hinv) (h.trans hsame)
  | done _ hrem hpos herr => exact .done _ hrem hpos herr
  | tooLong _ herr hlen => exact .tooLong _ herr (by rw [← h.1]; exact hlen)

theorem GoodPass.of_same {N : Nat} {L : Prop} {s s' : State} {rem : Bytes} {e : Err} {p : Pass}
    (h : Same s s') (ht : todo s' = todo s) (hg : GoodPass N L s' rem e p) : GoodPass N L s rem e p := by
  cases p with
  | ret b s'' => exact Good.of_same h hg
  | cont s'' => exact ⟨hg.1, h.trans hg.2.1, ht ▸ hg.2.2⟩
  | fault f => exact hg

theorem fill_ok {N : Nat} {L : Prop} {s : State} {rem : Bytes} {e : Err} (h : Inv N L s rem e)
    (hr : s.err.isSome = true → rem = []) (hreq : s.err = none → s.split s.window false = .ok .requestMore) :
    GoodPass N L s rem e (fill s) := by
  unfold fill
  rcases h.rest with ⟨herr, hrem, he⟩ | ⟨herr, hrem⟩
  · have hn : ¬ s.err.isSome = true := by simp [herr]
    simp only [if_neg hn]
    have hfit := h.fits
    -- the state after the shift
    generalize hs1 : (if s.start > 0 ∧ (s.end' = s.bufLen ∨ s.start > s.bufLen / 2) then
        { s with start := 0 } else s) = s1
    have hsame : Same s s1 ∧ s1.err = none ∧ s1.window = s.window ∧ s1.reader = s.reader
        ∧ s1.end' ≤ s1.bufLen ∧ (s1.end' = s1.bufLen → s1.start = 0) ∧ s1.bufLen = s.bufLen := by
      rw [← hs1]
      by_cases hc : s.start > 0 ∧ (s.end' = s.bufLen ∨ s.start > s.bufLen / 2)
      · rw [if_pos hc]
        refine ⟨⟨rfl, rfl⟩, herr, rfl, rfl, ?_, fun _ => rfl, rfl⟩
        simp [State.end'] at hfit ⊢; omega
      · rw [if_neg hc]
        refine ⟨⟨rfl, rfl⟩, herr, rfl, rfl, hfit, fun h' => ?_, rfl⟩
        have : ¬ s.start > 0 := fun h0 => hc ⟨h0, .inl h'⟩
        omega
    obtain ⟨hsm, herr1, hw1, hr1, hfit1, hst1, hbl⟩ := hsame
    have hcap1 : Cap N s1 := by unfold Cap; rw [hbl, hsm.2]; exact h.cap
    have hlate1 : L → Late s1.reader := by rw [hr1]; exact h.late
    have htodo : todo s1 = todo s := by simp [todo, herr, herr1, hr1]
    by_cases hfull : s1.end' = s1.bufLen
    · simp only [if_pos hfull]
      have hst := hst1 hfull
      by_cases hmax : s1.bufLen ≥ s1.maxTokenSize
      · simp only [if_pos hmax]
        refine .tooLong _ ?_ ?_
        · rw [setErr_none herr1]
        · simp only [State.end', hst, hw1] at hfull
          have hN : s.window.length = N := by unfold Cap at hcap1; omega
          refine ⟨by rw [hrem]; simp; omega, ?_⟩
          rw [hrem, ← hN, List.take_left]
          exact hreq herr
      · simp only [if_neg hmax]
        have hend : s1.window.length = s1.bufLen := by simpa [State.end', hst] using hfull
        generalize hns : min (if s1.bufLen * 2 = 0 then startBufSize else s1.bufLen * 2)
          s1.maxTokenSize = newSize
        have hgt : s1.bufLen < newSize := by
          rw [← hns]
          simp only [startBufSize]
          split <;> omega
        have hns' : newSize ≤ s1.maxTokenSize := by omega
        have := readLoop_ok N L (maxConsecutiveEmptyReads + 1) 0 { s1 with bufLen := newSize, start := 0 }
          rem e (by unfold Cap at hcap1 ⊢; simp only; omega) hlate1 herr1 (by simp [State.end']; omega) (by omega) (by simp [maxConsecutiveEmptyReads])
          (by simp [hw1, hr1, hrem]) (by simp [hr1, he])
        refine ⟨this.1, hsm.trans this.2.1, ?_⟩
        rw [← htodo]
        exact this.2.2
    · simp only [if_neg hfull]
      have := readLoop_ok N L (maxConsecutiveEmptyReads + 1) 0 s1
        rem e hcap1 hlate1 herr1 (by omega) (by omega) (by simp [maxConsecutiveEmptyReads])
        (by simp [hw1, hr1, hrem]) (by simp [hr1, he])
      refine ⟨this.1, hsm.trans this.2.1, ?_⟩
      rw [← htodo]
      exact this.2.2
  · have hn : s.err.isSome = true := by simp [herr]
    simp only [if_pos hn]
    exact .done _ (hr hn) (h.failed (by simp [herr])).1 herr

theorem splitAdv_eq {split : SplitFn} {d : Bytes} {k : Nat} {tok : Option Bytes} {err : Option String}
    (h : split d true = .ok ⟨k, tok, err⟩) : splitAdv split d = k := by simp [splitAdv, h]

theorem pass_ok {N : Nat} {L : Prop} {s : State} {rem : Bytes} {e : Err}
    (hgood : ∀ d eof, GoodSplit d eof (s.split d eof)) (hst : StableSplit s.split) (h : Inv N L s rem e) :
    GoodPass N L s rem e (pass s) := by
  unfold pass
  by_cases hc : s.window.length > 0 ∨ s.err.isSome = true
  · rw [if_pos hc]
    rcases hgood s.window s.err.isSome with ⟨h1, h2⟩ | ⟨k, hk1, hk2, h3⟩
    · simp only [h1, SplitRes.requestMore]
      have a1 : ¬ ((0 : Int) < 0) := by omega
      have a2 : ¬ ((0 : Int) > s.window.length) := by omega
      simp only [if_neg a1, if_neg a2, Int.toNat_zero, Nat.add_zero, List.drop_zero]
      refine GoodPass.of_same (s' := { s with token := none }) ⟨rfl, rfl⟩ rfl
        (fill_ok ⟨h.fits, h.cap, h.late, h.failed, h.rest⟩ ?_ ?_)
      rotate_left
      · intro hs
        have hs : s.err = none := hs
        rw [← h1, hs]
        rfl
      intro hs
      rcases h2 with h2 | h2
      · rcases h.rest with ⟨herr, _⟩ | ⟨_, hrem⟩
        · simp [herr] at hs
        · rw [hrem, h2]
      · exact absurd hs (by simp [h2])
    · simp only [h3]
      have a1 : ¬ ((k : Int) < 0) := by omega
      have a2 : ¬ ((k : Int) > s.window.length) := by omega
      simp only [if_neg a1, if_neg a2, Int.toNat_natCast]
      have a3 : s.err.isNone = true ∨ (k : Int) > 0 := .inr (by omega)
      simp only [if_pos a3]
      -- the same token is the first token of all that remains
      have hall : s.split rem true = .ok ⟨k, some (s.window.take k), none⟩ := by
        rcases h.rest with ⟨herr, hrem, _⟩ | ⟨herr, hrem⟩
        · rw [hrem]
          exact hst _ _ _ _ _ (by simpa [herr] using h3)
        · rw [hrem]
          simpa [herr] using h3
      have hadv : splitAdv s.split rem = k := splitAdv_eq hall
      have htake : s.window.take k = rem.take k := by
        rcases h.rest with ⟨_, hrem, _⟩ | ⟨_, hrem⟩
        · rw [hrem, List.take_append_of_le_length hk2]
        · rw [hrem]
      refine .token _ (s.window.take k) ?_ rfl (by rw [hadv, htake]) ?_ ?_ ⟨rfl, rfl⟩
      · intro h0
        rcases h.rest with ⟨_, hrem, _⟩ | ⟨_, hrem⟩
        · rw [h0] at hrem
          have := congrArg List.length hrem
          simp at this; omega
        · rw [h0] at hrem; rw [← hrem] at hk2; simp at hk2; omega
      · rintro ⟨⟨hN, hu⟩, hor⟩
        have hfit := h.fits
        simp only [State.end'] at hfit
        have hcap := h.cap.le
        rcases h.rest with ⟨herr, hrem, _⟩ | ⟨herr, hrem⟩
        · have h3' : s.split s.window false = .ok ⟨k, some (s.window.take k), none⟩ := by simpa [herr] using h3
          have hst' := hst _ ((deliver 0 s.reader).1.take (N - s.window.length)) false _ _ h3'
          rw [hrem, List.take_append, List.take_of_length_le (by omega), hst'] at hu
          cases hu
        · have hf := h.failed (by simp [herr])
          rw [hrem] at hN hor
          rcases hor with hor | hor
          · have := hf.2 hor
            omega
          · omega
      · rw [hadv]
        refine ⟨?_, h.cap, h.late, fun hne => ⟨(h.failed hne).1, fun hL => ?_⟩, ?_⟩
        · have := h.fits
          simp [State.end'] at this ⊢; omega
        · have := (h.failed hne).2 hL
          simp; omega
        · rcases h.rest with ⟨herr, hrem, he⟩ | ⟨herr, hrem⟩
          · exact .inl ⟨herr, by rw [hrem, List.drop_append_of_le_length hk2], he⟩
          · exact .inr ⟨herr, by rw [hrem]⟩
  · rw [if_neg hc]
    refine fill_ok h (fun hs => absurd (.inr hs) hc) fun _ => ?_
    have hw : s.window = [] := List.length_eq_zero_iff.mp (by omega)
    rcases hgood [] false with ⟨h1, _⟩ | ⟨k, hk1, hk2, _⟩
    · rw [hw]; exact h1
    · simp at hk2; omega

theorem scanLoop_ok {N : Nat} {L : Prop} : ∀ fuel s rem e, (∀ d eof, GoodSplit d eof (s.split d eof)) →
    StableSplit s.split → Inv N L s rem e → todo s < fuel →
    ∃ b s', scanLoop fuel s = .ok (b, s') ∧ Good N L s rem e b s' := by
  intro fuel
  induction fuel with
  | zero => intro s rem e _ _ _ h; omega
  | succ fuel ih =>
    intro s rem e hg hst hi hf
    have := pass_ok hg hst hi
    simp only [scanLoop]
    cases hp : pass s with
    | ret b s' => rw [hp] at this; exact ⟨b, s', rfl, this⟩
    | fault f => rw [hp] at this; exact absurd this (by simp [GoodPass])
    | cont s' =>
      rw [hp] at this
      obtain ⟨h1, h2, h3⟩ := this
      obtain ⟨b, s'', h4, h5⟩ := ih s' rem e (by rw [h2.1]; exact hg) (by rw [h2.1]; exact hst) h1
        (by omega)
      exact ⟨b, s'', h4, Good.of_same h2 h5⟩

theorem scan_ok {N : Nat} {L : Prop} {s : State} {rem : Bytes} {e : Err} (hg : ∀ d eof, GoodSplit d eof (s.split d eof))
    (hst : StableSplit s.split) (hi : Inv N L s rem e) :
    ∃ b s', scan s = .ok (b, s') ∧ Good N L s rem e b s' :=
  scanLoop_ok _ s rem e hg hst hi (by simp only [todo]; split <;> omega)

/-- The result of a user's loop. -/
theorem collect_ok (split : SplitFn) (hg : ∀ d eof, GoodSplit d eof (split d eof))
    (hst : StableSplit split) (N : Nat) (L : Prop) (rem : Bytes) (e : Err) :
    ∀ fuel s, s.split = split → Inv N L s rem e → rem.length < fuel →
    ∃ ts err, collect fuel s = .ok (ts, err) ∧
      Scanned (Undecided split N) (fun rem => Undecided split N rem ∧ (L ∨ N < rem.length)) (shownErr e)
        (segs (splitAdv split) rem) ts err := by
  have hga := goodAdv_of_good hg
  induction rem using hga.induction with
  | hnil =>
    intro fuel s hs hi hf
    obtain ⟨fuel, rfl⟩ : ∃ n, fuel = n + 1 := ⟨fuel - 1, by omega⟩
    obtain ⟨b, s', h1, h2⟩ := scan_ok (by rw [hs]; exact hg) (by rw [hs]; exact hst) hi
    simp only [collect, h1]
    cases h2 with
    | token _ tok hrem => exact absurd rfl hrem
    | done _ hrem hpos herr =>
      refine ⟨_, _, rfl, ?_⟩
      have : s'.getErr = shownErr e := by
        rw [State.getErr, herr]
        cases e <;> rfl
      rw [this, segs_nil]
      refine .full fun hu => ?_
      have := hu.1
      simp at this
      omega
    | tooLong _ herr hu =>
      rw [hs] at hu
      refine ⟨_, _, rfl, ?_⟩
      have : s'.getErr = some .tooLong := by simp [State.getErr, herr]
      rw [this, segs_nil]
      exact .tooLong hu
  | hcons rem hd ih =>
    intro fuel s hs hi hf
    obtain ⟨fuel, rfl⟩ : ∃ n, fuel = n + 1 := ⟨fuel - 1, by omega⟩
    obtain ⟨b, s', h1, h2⟩ := scan_ok (by rw [hs]; exact hg) (by rw [hs]; exact hst) hi
    simp only [collect, h1]
    have hfl : (segs (splitAdv split) rem).flatten = rem := hga.segs_flatten rem
    cases h2 with
    | token _ tok hrem htok heq hgo hinv hsame =>
      rw [hs] at heq hinv hgo
      have hp := hga.pos rem hd
      have hl := hga.le rem hd
      obtain ⟨ts, err, h3, h4⟩ := ih fuel s' (by rw [hsame.1, hs]) hinv (by simp; omega)
      simp only [h3, htok, Option.getD_some]
      refine ⟨_, _, rfl, ?_⟩
      rw [hga.segs_cons hd] at hfl ⊢
      rw [← heq] at hfl ⊢
      exact .next (by rw [hfl]; exact hgo) h4
    | done _ hrem hpos herr => exact absurd hrem hd
    | tooLong _ herr hu =>
      rw [hs] at hu
      refine ⟨_, _, rfl, ?_⟩
      have : s'.getErr = some .tooLong := by simp [State.getErr, herr]
      rw [this]
      exact .tooLong (by rw [hfl]; exact hu)

theorem tokens_exact (split : SplitFn) (hg : ∀ d eof, GoodSplit d eof (split d eof))
    (hst : StableSplit split) (r : Reader) (n m : Nat) (L : Prop) (hL : L → Late r) :
    ∃ ts err, tokens ((new split r).buffer n m) = .ok (ts, err) ∧
      Scanned (Undecided split (max n m)) (fun rem => Undecided split (max n m) rem ∧ (L ∨ max n m < rem.length))
        (shownErr (deliver 0 r).2) (segs (splitAdv split) (deliver 0 r).1) ts err := by
  have := deliver_size r 0
  refine collect_ok split hg hst (max n m) L (deliver 0 r).1 (deliver 0 r).2 _ _ rfl
    ⟨by simp [State.end', State.buffer, new], rfl, hL, fun h => absurd rfl h, .inl ⟨rfl, rfl, rfl⟩⟩
    (by simp [State.buffer, new]; omega)

theorem scanned_prefix {stop mustStop : Bytes → Prop} {e r : Option Err} {ts out : List Bytes}
    (h : Scanned stop mustStop e ts out r) : (out = ts ∧ r = e) ∨ (r = some .tooLong ∧ ∃ ts', ts = out ++ ts' ∧ stop ts'.flatten) := by
  induction h with
  | full _ => exact .inl ⟨rfl, rfl⟩
  | tooLong h => exact .inr ⟨rfl, _, rfl, h⟩
  | next _ _ ih =>
    rcases ih with ⟨h1, h2⟩ | ⟨h1, ts', h2, h3⟩
    · exact .inl ⟨by rw [h1], h2⟩
    · exact .inr ⟨h1, ts', by rw [h2]; rfl, h3⟩

theorem tokens_ok (split : SplitFn) (hg : ∀ d eof, GoodSplit d eof (split d eof))
    (hst : StableSplit split) (r : Reader) (n m : Nat) :
    ∃ ts err, tokens ((new split r).buffer n m) = .ok (ts, err) ∧
      ((ts = segs (splitAdv split) (deliver 0 r).1 ∧ err = shownErr (deliver 0 r).2)
      ∨ (err = some .tooLong ∧ m ≤ (deliver 0 r).1.length
        ∧ ∃ ts', segs (splitAdv split) (deliver 0 r).1 = ts ++ ts')) := by
  obtain ⟨ts, err, h1, h2⟩ := tokens_exact split hg hst r n m False False.elim
  refine ⟨ts, err, h1, ?_⟩
  rcases scanned_prefix h2 with h | ⟨h3, ts', h4, h5⟩
  · exact .inl h
  · refine .inr ⟨h3, ?_, ts', h4⟩
    have hfl := congrArg (fun l => (List.flatten l).length) h4
    simp only [(goodAdv_of_good hg).segs_flatten, List.flatten_append, List.length_append] at hfl
    have := h5.1
    have : m ≤ max n m := Nat.le_max_right _ _
    omega

end Uax29.Scanner
