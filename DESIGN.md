# Formal model and proofs for clipperhouse/uax29 (Go)

The code in `/repo` (packages `graphemes`, `words`, `phrases`, `sentences`,
`internal/iterators`, `internal/iterators/filter`) is modelled function by function in Lean 4 and the
properties in `properties.jsonl` are stated and proved about the model.

## Layout

| path | content |
| --- | --- |
| `properties.jsonl` | the properties C01, C02, … |
| `MANIFEST.json` | per property: status and exact theorem names |
| `lean/Verif/Table/*.lean` | the tables of the four `trie.go` files, transcribed by `tools/gen_tables.py` |
| `lean/Verif/Model/*.lean` | the model of the Go code; every definition cites file and lines |
| `lean/Verif/Spec/*.lean` | specifications that do not mention the model: UAX #29 rules, escape grammar, … |
| `lean/Verif/Spec/Ucd/*.lean` | ranges of code points of each property value |
| `lean/Verif/Proofs/*.lean` | helper lemmas |
| `lean/Verif/Props/*.lean` | the property theorems, each followed by a non-vacuity `example` |
| `lean/Verif/Tests/*.lean` | the test tables of `/repo`, evaluated in the model |
| `seeded/LOG.jsonl` | mutation tests of the theorems |
| `tools/gen_tables.py` | transcribes the tables of `/repo/*/trie.go` |
| `tools/gen_text.py` | quotes the lines of `/repo/*/trie.go` in `Table/*Text.lean`, where the kernel compares them with the tables |
| `tools/gen_source.py` | quotes the lines of the other Go files of the four packages, of internal/iterators and of its filter in `Table/*Source.lean` |
| `tools/gen_code.py`, `tools/emit_code.txt` | print what `Spec/GoRead.lean` reads from these lines as `Table/*Code.lean`, where the kernel reads it again and compares |
| `tools/gen_blocks.py` | prints the block correspondence that `Proofs/TwoTables.lean` checks |
| `tools/gen_hashes.py` | prints the node hashes in `Table/*Hashes.lean` that `Proofs/Shipped*.lean` checks |
| `tools/gen_ucd.py` | prints the ranges in `Spec/Ucd/*.lean` (from Perl) and the runs in `Table/*Runs.lean` |
| `tools/gen_tests.py` | transcribes the test tables of `/repo/*/*_test.go` to `Tests/*.lean` |
| `tools/manifest.py` | writes `MANIFEST.json` from the theorem names and `tools/notes.json` |

## Trusted base

* The Lean 4.33 kernel. Axioms used: at most `propext`, `Classical.choice`, `Quot.sound`.
  No `sorry`, no own axioms, no `native_decide`, no `bv_decide`.
* The transcription from Go to Lean in `Verif/Model` (read side by side with `/repo`). For the tables, the
  constants and the type `property` only `tools/gen_text.py`, which quotes the files line by line: C56 reads
  the tables from these lines with the small reader in `Spec/GoText.lean`.
  For the functions of C78–C91 it is not the transcription that is trusted but `tools/gen_source.py`, which quotes
  the Go files line by line, the reader `Spec/GoRead.lean` (tokens, grammar, scopes, constants, types) and the meaning of
  the part of Go in use, `Spec/GoCode.lean`. The kernel runs the reader on the quoted lines (`read_eq`). A package
  with anything that the reader cannot read is not read at all, and nothing is proved of it; so no function of a package
  that is read changes a variable of the package. Simplifications there:
  an `int` is not bounded, a pointer to a struct is the struct (there is one pointer to each at a time; a function that
  would make a second one, by `q := p` or a call in an expression that may change its receiver, is not read; the joiners
  of an iterator or scanner are those it was given, whatever the user does with the fields of the `Joiners` later), a method
  with a pointer for a receiver changes nothing else, and a `bufio.Scanner` is its reader and its split function:
  `bufio.NewScanner` and `Split` are read as what they do to these two. What the scanner does then is `Model/Scanner.lean`. The reader takes for granted that the text compiles: it does not
  compare types, and the names and constraints of type parameters mean nothing to it.
* `tools/gen_ucd.py` and Perl's Unicode 15.0 data for the ranges in `Spec/Ucd` (C51 only).
* The model of what Go's standard library does: `bufio.Scanner`, `utf8.DecodeRune`,
  `hash/crc64` (confirmed by the checksums in `trie.go`, C47), `strings.Split`, `strings.TrimSpace`,
  `strconv.ParseInt`, `bufio.ScanLines`, `bytes.ReplaceAll` and the verbs `%d`, `%x`, `%.2f` of `fmt`
  (generator only), and the rule that
  index and slice expressions out of range panic.

### What is modelled

* `lookup`, `lookupValue` and all tables of the four `trie.go` files (every entry).
* `splitFunc` of the four packages, `(*Joiners).splitFunc`, `subsequent`, `runesContain`.
* The iterators: `FromString/FromBytes`, `Next`, `Value`, `Start`, `End`, `First`, `Reset`, `SetText`,
  `Split`, `Joiners`, the ANSI options; also `internal/iterators.Iterator`.
* `ansi.go`, `ansi8.go`, `bleve_compat.go`, `filter.go`.
* The generator: `internal/gen/main.go` from the text of the Unicode files on (property files, test files,
  numbering of the properties), `internal/gen/triegen` with one trie, CRC-64, and the printing of `trie.go`
  and `unicode_test.go` down to the text that is given to `format.Source`.
* The work of segmenting: `Model/Cost.lean` repeats the split functions and `Next` with a counter.
* `Model/Memory.lean`: the iterators over slices (array, offset, length, capacity) of a memory with stores.
* `Model/IntIter.lean`: `Next` of the iterators with `Split`, with 64-bit `int`s.
* `Model/MachineTrie.lean`: the lookup with the integers of Go.
* `bufio.Scanner` (not in `/repo`), against a scripted `io.Reader`.

### What is not modelled, and simplifications

* `string` and `[]byte` are the same type `List UInt8`. The Go code is generic over both and only
  indexes, slices and measures them. C57–C60 are about slices of arrays in memory that the caller may change
  (`Model/Memory.lean`), and C57 leads them back to lists.
* Lengths and positions are natural numbers. Overflow of 64-bit `int` matters only for functions given to `Split`;
  C45 is proved with `int`s (`Model/IntIter.lean`).
* A `property` value is a natural number; only `&` and `|` are applied to it. C65 leads the lookup with `uint32` and
  `uint16` back to natural numbers. The positions in the split functions are natural numbers too: each is used to
  slice the text, where one above the length would be a fault, and C03 excludes faults.
* `for` loops run on fuel; running out of fuel is the explicit outcome `Fault.diverge`, which the
  theorems exclude.
* `unicode.IsLetter`/`IsNumber` are parameters.
* The Unicode Character Database 17.0 is not available here. "Given the shipped tables" means: the class
  of a character is what the shipped trie says. C51 says what that is: the Unicode 15.0 data of Perl, and
  an explicit list of the differences. Most of them are characters that were added later; the others are
  reclassifications (Arabic number signs, Kannada vowel signs, …) and the reduced Extended_Pictographic.
  The list is the observed difference, so that a wrong entry in `trie.go` would show up as a range in it.
* `io.Reader`s that break their own contract (negative or too large counts) have no entry in the script of a reader.
  `bufio.Scanner` takes no bytes from such a call and sets `ErrBadReadCount`, as if the reader had given no bytes and
  this error; errors of readers are arbitrary in the model.
* Of the code generator `internal/gen` the download and `format.Source` are not modelled (C56 is up to white space, C69
  is about tokens). `fmt` and `strconv.Quote` are modelled for the verbs and types that are printed; `unicode.IsPrint` is a
  parameter of which only `IsPrint('\n') = false` is used.
* Memory use, and time other than the number of table lookups and bytes tested (C54, C55).

### How the model and the statements are checked

* `Verif/Tests` evaluates the model (in the kernel) on all 3534 cases in the test tables of `/repo`: the
  official break tests of Unicode 17.0, `First`, the escape sequences, `subsequent`, the joiners and the
  Bleve functions. The model passes all of them. Through C08–C10 this also confirms the rules in
  `Spec/`. These checks are no proof of any property; they make a slip in the transcription unlikely.
* The checksums in `trie.go` agree with the transcribed tables (C47).
* `seeded/LOG.jsonl` records wrong variants of the model that were tried on the theorems, at two levels: does
  the proof fail, and (with an evaluator of the statements on small inputs) is the statement itself false
  for the variant. Where a variant was wrong but the statement still true, the statement was tightened.

## How the proofs are built

1. *Lookup.* A table check (`decide` over the whole tables, lifted by a lemma) shows that no index is
   out of range, so `lookup` is total on non-empty input; it consumes `w ≤ len` bytes, `w = 0` only for an
   incomplete encoding at the end; adding bytes does not change a result with `w > 0`.
2. *Split functions.* A loop invariant (`0 < pos ≤ len`) and a measure show termination, absence of
   faults and the `SplitFunc` contract. Locality of each loop pass (it does not change when bytes are
   appended, unless it asked for more) gives stability.
3. *Iterators.* `Next` is reduced to one function "length of the next token of the remaining text";
   all iterator properties follow from its bounds.
4. *Scanner.* An invariant relates the window and the reader's script to the rest of the text;
   stability and the contract give independence from chunking.
5. *Conformance.* The input is decoded to a list of property sets. A specification in `Spec/` states
   the UAX #29 rules as a predicate on (reversed) left context and right context. A simulation shows
   that the loop stops at the first position where the rules break, and a restart lemma shows that the
   rules do not look back past a boundary.

## Plan per property

| id | modelled by | how it is proved |
| --- | --- | --- |
| C01 | iterators | from the reduction of `Next` (3) by induction over the remaining text |
| C02 | iterators | same; fuel `len+1` suffices |
| C03 | iterators | invariant `start ≤ pos ≤ len` over arbitrary operation lists |
| C04 | iterators | same induction as C01, with offsets |
| C05 | iterators | `First` is a function of text, split function and options only |
| C06 | iterators | `Reset`/`SetText` give the state of a fresh iterator |
| C07 | lookup, split functions | token ends are character ends, by the decoding lemma for valid UTF-8 |
| C08–C11 | split functions vs. `Spec` | (5) |
| C12 | iterators vs. split functions | evaluation of the loop on ASCII runs; a bisimulation for the "back up one byte" start |
| C13 | split functions | locality of loop passes (2) |
| C14 | split functions | loop invariant (2) |
| C15, C16 | scanner | (4) |
| C17 | split functions | the run on a token follows the run on the text; with joiners by C07, C38, C74; false for cuts of escape sequences |
| C18 | conformance | no rule joins or looks across a line feed; violated exactly when `b` is just a cut off encoding (C18_iff) |
| C19, C20, C21, C22, C23 | conformance | consequences of the specification, via C08–C11; C19 and C20 for arbitrary bytes via C42; Hangul classes by a table check |
| C24, C25 | `ansi.go`, `ansi8.go` | recognizer equals grammar given as concatenations of byte classes |
| C26, C27 | iterator with options | from C24/C25 and the reduction of `Next` |
| C28, C29 | `(*Joiners).splitFunc` | simulation (5) with enlarged property sets; C29 is violated exactly when a leading joiner is a newline or an ignored character (C29_iff) |
| C30 | `(*Joiners).splitFunc` | the joiner tests never fire |
| C31 | iterator vs. scanner | violated exactly when Middle contains the space (C31_iff) |
| C32 | iterator | violated by the fast path; proved exactly for the split functions that agree with the fast path (C32_iff) |
| C33 | words, phrases | correspondence of the two tables block by block (table check, `tools/gen_blocks.py`), monotony of the rules, and C42 for arbitrary bytes |
| C34, C35 | `bleve_compat.go` | simulation with the words loop; recognizer equals regular form |
| C36 | `filter.go` | induction; letter and number tests are parameters |
| C37 | `lookup` | (1) |
| C38 | iterators | (3) |
| C39 | graphemes | rules have no look-ahead beyond one character |
| C40, C41 | iterators | evaluation on ASCII classes |
| C42 | split functions | (5) for arbitrary bytes: the chunks of lookup are the pieces of `Spec/Pieces`; violated for sentences with a cut off encoding at the end: counterexample, exact rule and exact condition (`Props/CutSentences.lean`) |
| C43 | iterators | the state of an iterator is changed only by calls on it |
| C44 | `internal/iterators` | induction over the tokens |
| C45 | iterators with `Split` | case analysis of `Next`, no assumption on the split function; violated exactly when the position overflows (`C45_words_iff`, `C45_internal_iff`): counterexample |
| C46 | `triegen` | the tree is a function of the last values (`rootOf`); an invariant of `computeOffsets` says that every hash in the maps leads to a block that represents the node |
| C47 | `triegen`, tables | a walk through the shipped tables in the generator's order, with the hashes of all nodes evaluated in the kernel |
| C48 | `internal/gen/main.go` | bits of the fold; uniqueness of the sorted list of names |
| C49 | iterators | a simulation between iterator states and (before, token, rest) |
| C50 | `(*Joiners).splitFunc` | as C28 and C29, with a simulation up to newline bits of earlier entries for newlines as leading joiners |
| C51 | tables | the runs of equal entries are checked against the trie in the kernel, then each property's runs against the ranges, as sorted lists of positions where the property changes |
| C52 | `internal/gen/main.go` | lemmas for splitting and trimming, induction over the lines of the format in `Spec/PropFile.lean`; the tables by C46–C48 and C51 |
| C53 | `internal/gen/main.go` | the same for the lines of the test files |
| C54 | split functions, iterators | counting copies, proved to give the same results; a potential: what is left to do at a token is bounded by the rest of the text less what the last look-ahead went over; and no unit of work covers more than four bytes, so that no loop escapes the count |
| C55 | split functions, iterators | linear work is violated for sentences (SB8) and with the ANSI options: families of texts with quadratic work; a quadratic upper bound for all |
| C56 | `internal/gen/main.go`, `internal/gen/triegen/print.go` | the printed lines as rows of elements, which the reader of `Spec/GoText.lean` gives back; the replacements work line by line; the lines of the files are compared in the kernel with the same rows |
| C57, C58, C59 | iterators over slices | `Next` reads the text from `End` on only, so it is the `Next` of the lists of bytes that are there at that moment; a frame lemma for stores elsewhere |
| C60 | iterators over slices | violated for slices with spare capacity: counterexample, for each of them (`C60_iff`); otherwise by the bounds check of the slice expression |
| C61, C62 | the four packages | violated (by the rules of UAX #29): counterexamples of every kind; by C08–C11 the claim is one about the rules; the three tables are joined into one list of runs with the properties of all of them, on which the facts needed are checked in the kernel; `Spec/Levels.lean` lists the positions within smaller tokens where a boundary may be; at a boundary being listed is equivalent to cutting a smaller token |
| C63 | `words` with joiners | by C50 the tokens follow the word rules with more properties; these join wherever the word rules do (monotony, with one special case for a newline as leading joiner); induction over the tokens with C38 |
| C64 | the four packages, joiners | violated by sentences of a text that ends with an incomplete encoding, by C42; else: U+FFFD has no property in the tables, so by C42 and C50 both texts have the same boundaries, and tokens are given by their boundaries. `Props/Repair.lean` also states C61 and C62 for arbitrary bytes |
| C65 | `lookup`, `lookupValue`, `is` | `Model/MachineTrie.lean` is the lookup with `uint32` and numbers of `w` bits; a check of the tables bounds the entries, the rest is case by case |
| C66 | words and phrases of ASCII text | `Spec/Ascii.lean` (`together`) knows no tables and no rules; C09/C11 and a check of the 128 characters |
| C67 | sentences without terminators | from C10: `endsClose`, `endsCloseSp` never hold; the ends of paragraphs are written out (`endsParagraph`) |
| C68 | ASCII characters exchanged for others with the same properties, on all byte sequences | the pieces of the exchanged text are the exchanged pieces; C42 (for sentences `C42_sentences_cut`) on both texts, and tokens are given by their boundaries |
| C69 | the text of `writeTests`, read as tokens of Go (`Spec/GoTokens.lean`, a scanner character by character) | the replacements go line by line, elements of slices lose their type; runs of the scanner are put together (`Scans`), escapes are undone by it |
| C70 | `writeTrie`, read as in C56, and the blocks of `computeOffsets` | invariant of the builder: as many blocks as nodes and no reference beyond them; a tree of Unicode has at most 34361 nodes. Violated for the index with less than eight properties: counterexample evaluated by the kernel |
| C71 | the split functions, any bytes | where more text changes the decision of a rule, the rest of the old text is one segment (`Settles`): WB6, WB7b, WB12 look over ignored characters only, SB8 over characters that end no sentence; then induction over the greedy segmentation. With joiners the same on the entries of `C50`. C71_ansi: no number of tokens is enough with escape sequences |
| C72 | `internal/gen/main.go`, any text | a relational meaning of any line (`Spec/PropLine.lean`: cut, trim, Go's hexadecimal literals), proved to describe every text and to agree with `File` of C52; the model splits, trims and parses as the relation says |
| C73 | the split functions, any bytes | where text before changes the decision of a rule from boundary to none, what is before the place is at most two segments (`Syncs`): the look-behind ends at the first character that is not ignored, unless that is all there is; then the boundary is one of the greedy segmentation of the whole, and the tokens after it are the same. C73_least, C73_fresh, C73_flags: the conditions are needed. C73_middle (Props/SyncJoiners): words with middle joiners, where the properties of a character may have MidNumLet besides (`Follows.sync_cell`) |
| C74 | the split functions and the iterators, any bytes | where a rule decides otherwise with text after it, it joins everything up to that text and the text too (`Firm`), so the first token would go past the boundary; then by induction over the tokens. With escape sequences: the grammar of C24 and C25, where only CAN and SUB after the sequence matter. C74_cut, C74_cancel: the conditions are needed |
| C75 | scanner, any reader and any length | the loop of `Scan` keeps that it has the bytes after the tokens yielded, in a buffer of at most `max n m` bytes (`Inv`, `Cap`); it stops only with a full buffer and a split function that asks for more (`Undecided`). A split function asks for more only at the end of what it has or when it looks ahead over a run of characters (`CharRun`) up to there; that run lies in the first two tokens (`window`, one per package). `Late`: a reader that gives its error alone; `Scanned`: what is yielded of a list of tokens |
| C76 | `internal/gen/main.go`, any text | a relational meaning of any line of tests (`Spec/TestText.lean`), proved to describe every text and to agree with `TestFile` of C53; the model cuts and parses as the relation says |
| C77 | `triegen`, comments | the comment lines are found and read in the printed lines (`Spec/GoSizes.lean`); the sizes are evaluated as the generator does. Violated for the index in three files: the element size is that of the smallest type, not of the declared one |
| C78, C79, C80, C81, C82, C88 | the Go text, read (`Spec/GoRead.lean`) and executed (`Spec/GoCode.lean`) | equations of the execution as rewriting rules (`go_run`); per statement of a loop body the environment is compared with the state of the model (`Agrees`, `Says`), loops by induction over the passes; that the bounds are enough is C03 (no fault, no divergence) of the model |
| C83, C84, C85 | the same, for `iterator.go` and `joiners.go`; `Spec/GoApi.lean` has the user | one lemma per method (`Proofs/GoIter.lean`); a relation between the value of an iterator and the iterator of the model (`Stands`) that every call keeps (`Api.call`); C85 adds C08–C11 |
| C89, C90, C91 | the same, for `reader.go` | the functions are executed; C91 puts the split function that the code has set into the scanner of the model and adds C75 and C08–C11 (with joiners C50) |
| C92 | sentences | C10 and the properties of the 128 characters; the text before a position is taken apart into terminator, brackets and blanks |
| C93 | words, phrases, sentences | C09–C11; the units that the rules count (`units`, `sunits`) are the same with and without the inserted characters, on both sides of every position |
| C94 | words | C09 and C17: a word on its own has no boundary in it; the rules at the characters of a kind leave only these forms |
| C95 | sentences | C10, and C74 for the sentence and the text after it; SB4 and SB11 are the only rules that break |
| C96 | words, phrases, sentences | C09, C11, C10; any two characters of the run are joined whatever is before and after them |
| C97 | graphemes | C08 and C74, C64 for arbitrary bytes (`Props/GrammarBytes.lean`); a text matches `Spec/ClusterGrammar.lean` exactly if the rules join all of its positions (`cluster_iff`); so the rules of C08 and the expression confirm each other; with the options for escape sequences by C24 and C25 (`Props/AnsiGrammar.lean`) |
| C98 | all four packages, joiners, ANSI options | C17, and C74 for the texts that a token divides (`divide_default`, `iter_divide`) |
| C99 | words, phrases, sentences | C98 and C09, C10, C11, C64 for arbitrary bytes; a text has the form of `Spec/WordGrammar.lean` exactly if the rules join all of its positions (`undivided_iff`): it is taken apart into characters with their marks, and the rules between these are put in the terms of the grammar (`unitJoins_iff`); for sentences `SGrammar.undivided_iff` of `Spec/SentenceGrammar.lean`, with one state for the inside and one after a terminator; with middle joiners by C28 and C31 (`Props/JoinerGrammar.lean`), as the grammar allows characters with several kinds of punctuation; with leading joiners, too, by C50 (`Props/LeadingGrammar.lean`): at the start of a text punctuation is of no consequence to the rules, and a letter that is also a Hebrew one is like a Hebrew one (`SameStart.joins`) |
| C100 | all four packages | C08 to C11, and that the rules do not tell a syllable from its parts (`Replacing`): after either of them nothing before it matters (`graphemeJoins_part`, `joins_forget`, `sjoinsIf_letter`), before either of them the same holds, and within the parts the rules join; the classes are from C23, the jamo by evaluation, and the joint table (`classes_none`) |
| C101 | all four packages | as C100: C08 to C11, and that the rules do not tell one line end from another (`Newlines`): after a line end nothing before it matters (`graphemeJoins_line`, `joins_line`, `sjoinsIf_line`), before it the same holds if there is no CR, and within a CR LF the rules join; positions within a CR LF are no boundaries, so that the replacement can be made token by token (`lineFeeds_flatten`) |
| C102 | graphemes, words, phrases, sentences | as C100 (`Replacing`, `Uncounted.replacing`): the rules do not count characters of the same kind before a position (`joins_forget`, `joins_double`, `sjoinsIf_double`; the states of the rules are searches backwards, `dropWhile_double`, `takeWhile_double`), after it only the kind matters, and two of the same kind are joined; that a character of these kinds has no other kind that matters is from the joint table (`gforms_only`, `forms_only`); that there are no more kinds (`C102_…_exact`): for every other kind the joint table shows that two or four of the character, or one with letters or pictographs around it, are divided where one (or two) are not (`repeat_divides`) |
| C103 | graphemes, words, phrases, sentences | as C102; the characters that are replaced are now the places of the sequence (`Replacing` is about characters of any type), and the text of the first characters of the runs gives the division (`divide_map`, `Uncounted.exchange`); with middle joiners a character of a kind that forms runs and that is no joiner has its own property values (`uncounted_middle`) |
| C104 | all packages | the boundary before the edit divides the text (C74), so what is before it does not depend on the old text, and by C71 not on the new one either, but for the last two tokens; what is after the edit has the same tokens alone (`segs_resume`) and after any text, but for the first ones (C73). C104_middle: from C73_middle and C71, C74 for joiners |
| C105 | all packages; words with joiners | the program is in `Spec/Stream.lean`; by induction on the parts, each step is C71 (`passedOn_flatten`) |
| C106 | all packages | two parts (C106_two, any bytes): the tokens of the second part but the first ones are the last tokens of the whole (C73), and what is before them is tokenized alone as in the whole (C74). More parts: by induction from the last; the first tokens of a part do not depend on what is after it (C71), so they are the ones the worker before has taken over. C106_middle: with middle joiners, by the same lemma (`workers_eq`). C106_least: two tokens are not enough for words. Spec/Parallel has the workers |
| C107 | all packages; words with middle joiners | each rule that looks ahead joins only if it finds something, so a pair that is joined stays joined with more text (`Growing`); with the conformance theorems this goes over to the tokens. C107_count: from C71, as at least one token is left of the last ones; C107_before: likewise from C73 |
| C86, C87 | the same, for internal/iterators and its filter | one lemma per method (`Proofs/GoGeneric.lean`); C44 for the tokens, C36 for the end of the loop of the filter |
