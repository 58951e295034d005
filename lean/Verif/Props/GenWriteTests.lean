import Verif.Proofs.GenWriteTests
/-!
# C69: the printed tests are the tests

Read as tokens of Go, the text that `writeTests` gives to `format.Source` declares the type of a test and an array with as many
tests as there are, in their order: the bytes of the input, the bytes of each expected token and the comment are those of the
test, whatever characters the comment has to escape. The two replacements in the finished text, meant for the types of the
slices, would also change a comment: the hypothesis on the comments is necessary.
-/
namespace Uax29.Gen
open Spec Spec.GoTokens

/-- C69: the tokens of the printed tests. -/
theorem C69_tokens (isPrint : Char → Bool) (hp : isPrint '\n' = false) (p : Name) (tests : List UnicodeTest)
    (h : ∀ t ∈ tests, ¬ chars "[]uint8{" <:+: t.comment) :
    tokens (writeTests isPrint p tests) = some (fileTokens (p.packageName ++ chars "_test")
      (tests.map fun t => testTokens (t.input.map UInt8.toNat) (t.expected.map (List.map UInt8.toNat)) t.comment)) := by
  have e : writeTests isPrint p tests = testHead p ++ (chars "\n" ++
      ((chars "var unicodeTests = [" ++ (decimal tests.length ++ chars "]unicodeTest {\n")) ++
      (tests.flatMap (testText' isPrint) ++ chars "}\n\n"))) := by
    rw [show writeTests isPrint p tests = replaced (testsHead p tests.length ++ tests.flatMap (testText isPrint) ++ chars "}\n\n")
      from rfl]
    have e1 : testsHead p tests.length ++ tests.flatMap (testText isPrint) ++ chars "}\n\n" = testHead p ++ (chars "\n" ++
      ((chars "var unicodeTests = [" ++ (decimal tests.length ++ chars "]unicodeTest {\n")) ++
      (tests.flatMap (testText isPrint) ++ chars "}\n\n"))) := by
      simp only [testsHead, testHead, List.append_assoc]
    have hl : ∃ a, testHead p = a ++ ['\n'] := ⟨(testHead p).dropLast, by cases p <;> decide +kernel⟩
    obtain ⟨a, ha⟩ := hl
    rw [e1, replaced_line' ha, testHead_replaced, replaced_skip (by decide),
      replaced_line' (a := chars "var unicodeTests = [" ++ (decimal tests.length ++ chars "]unicodeTest {\n"))
        (a' := chars "var unicodeTests = [" ++ (decimal tests.length ++ chars "]unicodeTest {")) (by simp),
      array_replaced, tests_replaced isPrint tests h, replaced_self (s := chars "}\n\n") (by decide)]
  have h1 : Scans .start (chars "\n") [] .start := by decide
  have h2 : Scans .start (chars "}\n\n") [.sym '}'] .start := by decide
  have hs := (scans_testHead p).append (h1.append ((scans_array tests.length).append ((scans_tests isPrint hp tests).append h2)))
  rw [← e, Scans] at hs
  rw [tokens, hs]
  simp only [fileTokens, headTokens, List.length_map]
  rfl

/-- C69, from the file of tests to the printed tests: if the file does not contain the replaced text, each of its tests is printed
with its input and its expected tokens. -/
theorem C69_file (isPrint : Char → Bool) (hp : isPrint '\n' = false) (p : Name) {text : List Char}
    {tests : List (List (List Char))} (h : PropFile.TestFile text tests) (hs : PropFile.ShortLines text) (ht : ¬ chars "[]uint8{" <:+: text) :
    ∃ ts comments, readTests text = .ok (some ts) ∧ comments.length = tests.length
      ∧ tokens (writeTests isPrint p ts) = some (fileTokens (p.packageName ++ chars "_test")
        (List.zipWith (fun css comment => testTokens ((utf8 css.flatten).map UInt8.toNat)
          (css.map fun cs => (utf8 cs).map UInt8.toNat) comment) tests comments)) := by
  obtain ⟨ts, h1, h2⟩ := h.parse hs
  refine ⟨ts, ts.map (·.comment), h1, ?_, ?_⟩
  · have := congrArg List.length h2
    simpa using this
  · rw [C69_tokens isPrint hp p ts]
    · congr 2
      clear h1
      clear h
      induction ts generalizing tests with
      | nil =>
        cases tests with
        | nil => rfl
        | cons _ _ => simp at h2
      | cons t ts ih =>
        cases tests with
        | nil => simp at h2
        | cons css tests =>
          simp only [List.map_cons, List.cons.injEq, Prod.mk.injEq] at h2
          rw [List.map_cons, List.map_cons, List.zipWith_cons_cons, ih h2.2, h2.1.1, h2.1.2, List.map_map]
          rfl
    · intro t htm hc
      obtain ⟨l, hl, hi⟩ := parseTests_comment h1 t htm
      exact ht (hc.trans (hi.trans (textLines_infix text [] l hl)))

/-- For instance all of this has to be escaped in the comment, and is there in the end. -/
example :
    let t : UnicodeTest := ⟨[0x0d, 0xc3, 0xa4], [[0x0d], [0xc3, 0xa4]], chars "÷ [0.2] \"\\n\"\n\x00"⟩
    let isPrint : Char → Bool := fun c => ' ' ≤ c
    tokens (writeTests isPrint .word [t]) = some (fileTokens (chars "words_test") [testTokens [13, 195, 164] [[13], [195, 164]] t.comment])
    ∧ chars "comment: \"÷ [0.2] \\\"\\\\n\\\"\\n\\x00\",\n" <:+: writeTests isPrint .word [t]
    ∧ chars "expected: [][]byte{{0xd}, {0xc3, 0xa4}},\n" <:+: writeTests isPrint .word [t] := by
  refine ⟨C69_tokens _ (by decide) .word _ (by decide +kernel), ?_, ?_⟩ <;> decide +kernel

/-- The hypothesis on the comments is necessary: here the comment `[]uint8{}` became `[]byte{}`. -/
theorem C69_comment_fails :
    let t : UnicodeTest := ⟨[0x61], [[0x61]], chars "[]uint8{}"⟩
    let isPrint : Char → Bool := fun c => ' ' ≤ c
    tokens (writeTests isPrint .word [t]) = some (fileTokens (chars "words_test") [testTokens [0x61] [[0x61]] (chars "[]byte{}")]) := by
  decide +kernel

-- the sources named in graphemes/unicode_test.go:4, words/unicode_test.go:4 and sentences/unicode_test.go:4
example : Name.testURL .grapheme = chars "https://www.unicode.org/Public/17.0.0/ucd/auxiliary/GraphemeBreakTest.txt"
    ∧ Name.testURL .word = chars "https://www.unicode.org/Public/17.0.0/ucd/auxiliary/WordBreakTest.txt"
    ∧ Name.testURL .sentence = chars "https://www.unicode.org/Public/17.0.0/ucd/auxiliary/SentenceBreakTest.txt" := by decide +kernel

end Uax29.Gen
