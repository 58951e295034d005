{"id": "C01", "title": "Tokenization is lossless", "statement": "Iterating over any input with graphemes, words, phrases or sentences yields tokens whose concatenation is exactly the input, and no token is empty. This holds with any ANSI options (graphemes) and any Joiners (words).", "quantifier": "every byte sequence, valid UTF-8 or not; every setting of the ANSI options; every Joiners value", "why_tests_cant": "The space of byte strings is infinite and fuzzing only samples it; a lost or duplicated byte may need a rare combination of rune classes and truncation.", "anchors": ["graphemes/iterator.go: Iterator.Next, Value", "words/iterator.go: Iterator.Next, Value", "phrases/iterator.go: Iterator.Next, Value", "sentences/iterator.go: Iterator.Next, Value"]}
{"id": "C02", "title": "Iteration ends", "statement": "A loop `for it.Next() {}` over any input ends: Next returns true at most len(input) times, every call returns, and after it has returned false it keeps returning false.", "quantifier": "every byte sequence, every package, every option or Joiners value, any number of further calls", "why_tests_cant": "Non-termination on one rare input cannot be excluded by running finitely many inputs (the sentence rules contain a loop pass that does not move the position).", "anchors": ["graphemes/iterator.go: Iterator.Next, Value", "words/iterator.go: Iterator.Next, Value", "phrases/iterator.go: Iterator.Next, Value", "sentences/iterator.go: Iterator.Next, Value", "sentences/splitfunc.go: splitFunc"]}
{"id": "C03", "title": "No call panics in any history", "statement": "No sequence of calls of Next, Value, Start, End, First, Reset, SetText, option changes and Joiners on an iterator from FromString or FromBytes ever panics.", "quantifier": "every finite history of API calls with every argument, on every initial text", "why_tests_cant": "Histories combine unboundedly many calls and arbitrary texts; table indexing and slicing could be out of range for one of them.", "anchors": ["graphemes/iterator.go: Iterator.Next, Value", "words/iterator.go: Iterator.Next, Value", "phrases/iterator.go: Iterator.Next, Value", "sentences/iterator.go: Iterator.Next, Value", "graphemes/trie.go: lookup", "words/trie.go: lookup", "phrases/trie.go: lookup", "sentences/trie.go: lookup"]}
{"id": "C04", "title": "Positions describe the value and are contiguous", "statement": "After Next returns true, 0 <= Start < End <= len(data), Value is data[Start:End], Start equals the End of the previous token (0 for the first), and the last token ends at len(data).", "quantifier": "every byte sequence, every step of the iteration, every package, option and Joiners value", "why_tests_cant": "Offsets are checked in tests for sample texts only; callers slice their own buffers with them for arbitrary texts.", "anchors": ["graphemes/iterator.go: Iterator.Next, Value", "words/iterator.go: Iterator.Next, Value", "phrases/iterator.go: Iterator.Next, Value", "sentences/iterator.go: Iterator.Next, Value", "Iterator.Start, Iterator.End in the four packages"]}
{"id": "C05", "title": "First is the first token and has no effect", "statement": "First returns the token the first Next of a fresh iteration would give (the empty input for empty data) whatever the current position, and does not change the result of any later call.", "quantifier": "every text, every history before and after the call", "why_tests_cant": "The interference of First with later calls depends on the whole history.", "anchors": ["graphemes/iterator.go: First", "words/iterator.go: First", "phrases/iterator.go: First", "sentences/iterator.go: First"]}
{"id": "C06", "title": "Reset and SetText start over", "statement": "After any history, Reset makes the iterator behave like a fresh one over the same text, and SetText(t) like a fresh one over t (with the same options and split function).", "quantifier": "every history before, every history after, every text", "why_tests_cant": "A state variable that survives Reset only shows for particular histories.", "anchors": ["Iterator.Reset, Iterator.SetText in the four packages"]}
{"id": "C07", "title": "Runes are never cut", "statement": "If the input is valid UTF-8 then every token is valid UTF-8, in all packages, also with ANSI options, Joiners and through the scanners.", "quantifier": "every valid UTF-8 text and every option, Joiners value and reader behaviour", "why_tests_cant": "Over a million code points in unboundedly many contexts.", "anchors": ["graphemes/iterator.go: Iterator.Next, Value", "words/iterator.go: Iterator.Next, Value", "phrases/iterator.go: Iterator.Next, Value", "sentences/iterator.go: Iterator.Next, Value", "graphemes/trie.go: lookup", "words/trie.go: lookup", "phrases/trie.go: lookup", "sentences/trie.go: lookup"]}
{"id": "C08", "title": "Grapheme segmentation conforms to UAX #29", "statement": "On valid UTF-8 there is a token boundary at a position if and only if rules GB1-GB999 of UAX #29 put one there, given the character properties in the shipped tables.", "quantifier": "every valid UTF-8 text and every position in it", "why_tests_cant": "The official test file has 766 short samples; the rules have unbounded context (GB9c, GB11, GB12/13).", "anchors": ["graphemes/splitfunc.go: SplitFunc", "graphemes/iterator.go: Iterator.Next"]}
{"id": "C09", "title": "Word segmentation conforms to UAX #29", "statement": "On valid UTF-8 there is a token boundary at a position if and only if rules WB1-WB999 of UAX #29 put one there, given the character properties in the shipped tables.", "quantifier": "every valid UTF-8 text and every position in it", "why_tests_cant": "The official test file has 1944 short samples; WB4 makes the context on both sides unbounded.", "anchors": ["words/splitfunc.go: SplitFunc", "words/iterator.go: Iterator.Next"]}
{"id": "C10", "title": "Sentence segmentation conforms to UAX #29", "statement": "On valid UTF-8 there is a token boundary at a position if and only if rules SB1-SB998 of UAX #29 put one there, given the character properties in the shipped tables.", "quantifier": "every valid UTF-8 text and every position in it", "why_tests_cant": "The official test file has 512 samples; SB8 looks ahead without bound and SB8a-SB11 look back without bound.", "anchors": ["sentences/splitfunc.go: SplitFunc", "sentences/iterator.go: Iterator.Next"]}
{"id": "C11", "title": "Phrase segmentation follows its documented rules", "statement": "On valid UTF-8 there is a phrase boundary at a position if and only if the word rules say so after two documented changes: Extended_Pictographic counts as AHLetter, and WB8-WB10 also join WSegSpace with letters, numbers and spaces.", "quantifier": "every valid UTF-8 text and every position in it", "why_tests_cant": "There is no official test file for phrases, and the context is unbounded.", "anchors": ["phrases/splitfunc.go: SplitFunc", "phrases/iterator.go: Iterator.Next"]}
{"id": "C12", "title": "The ASCII fast paths are invisible", "statement": "Iterating gives exactly the tokens one gets by applying the package's SplitFunc repeatedly to the remaining text, i.e. the ASCII fast path of Next never changes a boundary (default options, no Joiners).", "quantifier": "every byte sequence, every package", "why_tests_cant": "The fast path is taken depending on text of any length before and after it; a difference needs a particular continuation after an ASCII run.", "anchors": ["graphemes/iterator.go: Iterator.Next, Value", "words/iterator.go: Iterator.Next, Value", "phrases/iterator.go: Iterator.Next, Value", "sentences/iterator.go: Iterator.Next, Value", "graphemes/splitfunc.go: SplitFunc", "words/splitfunc.go: SplitFunc", "phrases/splitfunc.go: SplitFunc", "sentences/splitfunc.go: SplitFunc"]}
{"id": "C13", "title": "A token from a partial buffer is final", "statement": "If SplitFunc returns a token for a buffer with atEOF=false, then it returns the same token for every extension of the buffer, whatever atEOF is.", "quantifier": "every buffer, every continuation, every split function including Joiners", "why_tests_cant": "Quantifies over all continuations of all buffers; a scanner that commits too early only shows with particular chunk boundaries.", "anchors": ["graphemes/splitfunc.go: SplitFunc", "words/splitfunc.go: SplitFunc", "phrases/splitfunc.go: SplitFunc", "sentences/splitfunc.go: SplitFunc", "words/joiners.go: Joiners"]}
{"id": "C14", "title": "SplitFunc keeps the bufio.SplitFunc contract", "statement": "For every buffer: no error; either advance 0 and a nil token, or advance = len(token) > 0 and token is the prefix of the buffer of that length. With atEOF=true and a non-empty buffer it always returns a token; the empty buffer gives no token.", "quantifier": "every buffer and both values of atEOF, every split function including Joiners", "why_tests_cant": "bufio.Scanner panics or stops with an error if the contract is broken for any buffer content.", "anchors": ["graphemes/splitfunc.go: SplitFunc", "words/splitfunc.go: SplitFunc", "phrases/splitfunc.go: SplitFunc", "sentences/splitfunc.go: SplitFunc"]}
{"id": "C15", "title": "Scanning does not depend on how the reader delivers", "statement": "A Scanner from FromReader yields the same tokens as the iterator over the whole input, however the reader splits the input into reads (including empty reads), whatever buffer is set, as long as the scan does not stop with an error.", "quantifier": "every input, every schedule of read sizes, every initial buffer and maximum token size", "why_tests_cant": "The number of ways to chunk an input is exponential, and buffers shift and grow in between.", "anchors": ["graphemes/reader.go: FromReader", "words/reader.go: FromReader", "phrases/reader.go: FromReader", "sentences/reader.go: FromReader"]}
{"id": "C16", "title": "Scanning after errors loses nothing that was delivered", "statement": "If the reader fails with an error, the scanner yields exactly the tokens of the bytes delivered before it and Err returns that error. If a token does not fit the buffer, the tokens yielded before ErrTooLong are a prefix of the true tokens; this cannot happen if the input is shorter than the maximum token size.", "quantifier": "every input, every point of failure, every schedule of reads, every buffer size", "why_tests_cant": "Failure points and chunkings combine without bound.", "anchors": ["graphemes/reader.go: FromReader", "words/reader.go: FromReader, Scanner.Joiners"]}
{"id": "C17", "title": "Tokens are atomic", "statement": "Tokenizing any token again with the same package yields just that token; so does tokenizing a word with joiners again with the same joiners, in UTF-8. With the ANSI options it holds for a token that ends with a whole encoding unless CAN or SUB comes after it; then it fails: a cancelled control string is a token only before what cancels it.", "quantifier": "every byte sequence, every token of it, every package (default options); every Joiners value and text in UTF-8; every setting of the ANSI options", "why_tests_cant": "Depends on look-ahead past the end of the token, which differs in isolation.", "anchors": ["graphemes/iterator.go: Iterator.Next, Value", "words/iterator.go: Iterator.Next, Value", "phrases/iterator.go: Iterator.Next, Value", "sentences/iterator.go: Iterator.Next, Value"]}
{"id": "C18", "title": "Lines are independent", "statement": "For valid UTF-8 text a, the tokens of a + \"\\n\" + b are the tokens of a + \"\\n\" followed by the tokens of b, in all packages. So texts may be processed line by line.", "quantifier": "every valid UTF-8 a, every byte sequence b", "why_tests_cant": "Look-ahead and look-behind across the line end would only show for particular contexts.", "anchors": ["graphemes/iterator.go: Iterator.Next, Value", "words/iterator.go: Iterator.Next, Value", "phrases/iterator.go: Iterator.Next, Value", "sentences/iterator.go: Iterator.Next, Value"]}
{"id": "C19", "title": "Line ends are isolated", "statement": "A CR LF pair is never separated, and in graphemes and words a token that contains CR or LF is exactly CR LF, CR or LF; in graphemes the same holds for every control character; a sentence ends with its first line end or separator.", "quantifier": "every valid UTF-8 text; also every byte sequence taken apart into characters and ill-formed pieces (C42), where only the bytes of a cut off encoding at the end may follow in the last token", "why_tests_cant": "Any character may precede or follow.", "anchors": ["graphemes/splitfunc.go: SplitFunc", "words/splitfunc.go: SplitFunc"]}
{"id": "C20", "title": "Marks stay with their base", "statement": "A grapheme never starts with an Extend, ZWJ or SpacingMark character unless it is at the start of the text or follows a control character or line end. A word, phrase or sentence never starts with an Extend, Format or ZWJ character unless it is at the start of the text or follows a line end.", "quantifier": "every valid UTF-8 text and every token; also every byte sequence taken apart into characters and ill-formed pieces (C42)", "why_tests_cant": "Unbounded sequences of marks after any base.", "anchors": ["graphemes/splitfunc.go: SplitFunc", "words/splitfunc.go: SplitFunc", "phrases/splitfunc.go: SplitFunc", "sentences/splitfunc.go: SplitFunc"]}
{"id": "C21", "title": "Flags pair up", "statement": "A text of n regional indicator symbols is split into pairs from the left: floor(n/2) tokens of two and, if n is odd, one more of one, as graphemes, as words and as phrases.", "quantifier": "every n and every choice of regional indicators", "why_tests_cant": "Parity over runs of any length.", "anchors": ["graphemes/splitfunc.go: SplitFunc", "words/splitfunc.go: SplitFunc", "phrases/splitfunc.go: SplitFunc"]}
{"id": "C22", "title": "Emoji ZWJ sequences are one grapheme, one word, one phrase", "statement": "A sequence of pictographs, each followed by any number of Extend characters, joined by ZWJ, is one grapheme, one word and one phrase. In a longer text no word or phrase boundary is within it.", "quantifier": "every number of elements, every pictograph, every choice of Extend characters, every text around it", "why_tests_cant": "Sequences of any length; tests contain a few well-known emoji.", "anchors": ["graphemes/splitfunc.go: SplitFunc", "words/splitfunc.go: SplitFunc", "phrases/splitfunc.go: SplitFunc"]}
{"id": "C23", "title": "Hangul syllables are one grapheme", "statement": "Every Hangul syllable block of the form L* (V+ | LV V* | LVT) T*, L+ or T+ is one grapheme, and precomposed syllables are classified LV or LVT by (c - 0xAC00) mod 28.", "quantifier": "every sequence of that form of any length, every precomposed syllable", "why_tests_cant": "Sequences of any length; 11172 syllables.", "anchors": ["graphemes/splitfunc.go: SplitFunc", "graphemes/trie.go: lookup"]}
{"id": "C24", "title": "7-bit ANSI recognition is exactly the documented grammar", "statement": "With AnsiEscapeSequences set, Next at an ESC consumes exactly the escape sequence described in the documentation of the option (CSI, OSC, DCS/SOS/PM/APC, nF, two-byte), and falls back to normal segmentation if and only if the rest of the text does not begin with one.", "quantifier": "every byte sequence and every position of ESC in it", "why_tests_cant": "Parameter, intermediate and payload parts have any length and content.", "anchors": ["graphemes/ansi.go: ansiEscapeLength", "graphemes/iterator.go: AnsiEscapeSequences"]}
{"id": "C25", "title": "8-bit ANSI recognition is exactly the documented grammar", "statement": "With AnsiEscapeSequences8Bit set, Next at a byte 0x80-0x9F consumes exactly the C1 sequence described in the documentation (C1 CSI, C1 OSC, C1 DCS/SOS/PM/APC, standalone C1), and falls back to normal segmentation if and only if the rest of the text does not begin with one.", "quantifier": "every byte sequence and every position in it", "why_tests_cant": "Parameter and payload parts have any length and content.", "anchors": ["graphemes/ansi8.go: ansiEscapeLength8Bit", "graphemes/iterator.go: AnsiEscapeSequences8Bit"]}
{"id": "C26", "title": "ANSI options do nothing without escapes", "statement": "If the text has no ESC byte, AnsiEscapeSequences does not change any token; if the text is valid UTF-8, AnsiEscapeSequences8Bit does not change any token. In general tokens differ only from the first escape sequence on.", "quantifier": "every such text, every combination of the options", "why_tests_cant": "Interference could need any particular text.", "anchors": ["graphemes/iterator.go: Iterator.Next"]}
{"id": "C27", "title": "An escape sequence is one token between normal tokens", "statement": "With AnsiEscapeSequences set, a text u + e + v, where u is valid UTF-8 without ESC and e is a complete, terminated escape sequence, is split into the tokens of u, then e, then the tokens of v.", "quantifier": "every u, e, v of that form", "why_tests_cant": "Payloads may contain any bytes, and neighbours may be any text.", "anchors": ["graphemes/iterator.go: Iterator.Next", "graphemes/ansi.go: ansiEscapeLength"]}
{"id": "C28", "title": "Middle joiners extend the word rules and nothing else", "statement": "With Joiners{Middle: M} the scanner's words are those of the UAX #29 word rules in which, in addition, every character of M counts as MidNumLet; ill-formed bytes have no property, and are the rune U+FFFD for the joiners.", "quantifier": "every set M of runes, every byte sequence", "why_tests_cant": "Every set of runes combined with every text.", "anchors": ["words/joiners.go: Joiners", "words/splitfunc.go: Joiners.splitFunc"]}
{"id": "C29", "title": "Leading joiners extend the word rules and nothing else", "statement": "With Joiners{Leading: L} a word that starts with a character of L is the one the UAX #29 word rules give when, in addition, that first character counts as AHLetter; all other words are as without joiners.", "quantifier": "every set L of runes, every byte sequence", "why_tests_cant": "Every set of runes combined with every text.", "anchors": ["words/joiners.go: Joiners", "words/splitfunc.go: Joiners.splitFunc"]}
{"id": "C30", "title": "Empty joiners change nothing", "statement": "A nil *Joiners, a Joiners with nil slices and one with empty slices give the tokens of the default words iterator and scanner; runes that do not occur in the text can be added to the joiners without effect (ill-formed bytes are the rune U+FFFD here).", "quantifier": "every byte sequence, every Joiners value", "why_tests_cant": "Every text.", "anchors": ["words/joiners.go: Iterator.Joiners", "words/reader.go: Scanner.Joiners"]}
{"id": "C31", "title": "Iterator and scanner agree on joiners", "statement": "An iterator and a scanner with the same Joiners yield the same tokens for the same text.", "quantifier": "every Joiners value, every byte sequence", "why_tests_cant": "The iterator has a fast path the scanner does not have; a disagreement needs a particular combination of joiners and text.", "anchors": ["words/joiners.go: Iterator.Joiners", "words/reader.go: Scanner.Joiners", "words/iterator.go: Iterator.Next"]}
{"id": "C32", "title": "A split function set with Split decides all tokens", "statement": "After words.Iterator.Split(f) the tokens are those f gives when applied repeatedly to the remaining text.", "quantifier": "every well-behaved split function f, every byte sequence", "why_tests_cant": "Every function f.", "anchors": ["words/iterator.go: Iterator.Split, Iterator.Next"]}
{"id": "C33", "title": "Phrases are unions of words", "statement": "Every phrase boundary is a word boundary: each phrase is a concatenation of whole words.", "quantifier": "every byte sequence", "why_tests_cant": "The two packages have separate generated tables and separate rule code.", "anchors": ["phrases/splitfunc.go: SplitFunc", "words/splitfunc.go: SplitFunc", "phrases/trie.go", "words/trie.go"]}
{"id": "C34", "title": "BleveNumeric accepts only single words of numeric characters", "statement": "If BleveNumeric accepts a non-empty token, the token is a single word for words.SplitFunc, starts with a Numeric or ExtendNumLet character, and all its characters are Numeric, ExtendNumLet, MidNum, MidNumLet, Single_Quote or ignored ones. It terminates on every input.", "quantifier": "every byte sequence", "why_tests_cant": "Unbounded input.", "anchors": ["words/bleve_compat.go: BleveNumeric"]}
{"id": "C35", "title": "BleveIdeographic accepts exactly its documented form", "statement": "BleveIdeographic accepts a token if and only if it is empty or a character with the ideographic property (Han, Hiragana, Katakana) followed by any number of ideographic, ExtendNumLet, Extend, Format or ZWJ characters. It terminates on every input.", "quantifier": "every byte sequence", "why_tests_cant": "Unbounded input.", "anchors": ["words/bleve_compat.go: BleveIdeographic"]}
{"id": "C36", "title": "The AlphaNumeric filter is an existential test", "statement": "filter.AlphaNumeric accepts a token if and only if decoding it rune by rune, as Go's range does, yields some rune that is a Unicode letter or number.", "quantifier": "every byte sequence, every definition of letter and number", "why_tests_cant": "Unbounded input, invalid encodings.", "anchors": ["internal/iterators/filter/filter.go: AlphaNumeric"]}
{"id": "C37", "title": "Table lookup is total and in step with UTF-8", "statement": "For every non-empty byte sequence the property lookup reads no table out of range and consumes at most the available bytes; for the encoding of a character it consumes exactly that encoding, whatever follows; it asks for more bytes only at the end of the data.", "quantifier": "every byte sequence, every code point, all four tables", "why_tests_cant": "2^32 four-byte windows; tests touch a few.", "anchors": ["graphemes/trie.go: lookup", "words/trie.go: lookup", "phrases/trie.go: lookup", "sentences/trie.go: lookup"]}
{"id": "C38", "title": "Resuming at a token boundary", "statement": "Tokenizing the rest of a text from the end of any token yields exactly the remaining tokens, so work can be split or resumed at any token boundary.", "quantifier": "every byte sequence, every token boundary, every package, option and Joiners value", "why_tests_cant": "Every boundary of every text.", "anchors": ["graphemes/iterator.go: Iterator.Next, Value", "words/iterator.go: Iterator.Next, Value", "phrases/iterator.go: Iterator.Next, Value", "sentences/iterator.go: Iterator.Next, Value"]}
{"id": "C39", "title": "Appending text keeps earlier graphemes", "statement": "For valid UTF-8 a and any b, all graphemes of a except the last are also the first graphemes of a + b.", "quantifier": "every valid UTF-8 a, every b", "why_tests_cant": "All continuations of all texts.", "anchors": ["graphemes/splitfunc.go: SplitFunc", "graphemes/iterator.go: Iterator.Next"]}
{"id": "C40", "title": "Graphemes of ASCII text", "statement": "The graphemes of an ASCII text are its bytes, except that each CR LF is one grapheme.", "quantifier": "every ASCII text", "why_tests_cant": "Texts of any length.", "anchors": ["graphemes/iterator.go: Iterator.Next", "graphemes/splitfunc.go: SplitFunc"]}
{"id": "C41", "title": "Words of ASCII alphanumeric text", "statement": "The words of a text of ASCII letters, digits and spaces are its maximal runs of letters and digits and its maximal runs of spaces.", "quantifier": "every such text", "why_tests_cant": "Texts of any length.", "anchors": ["words/iterator.go: Iterator.Next", "words/splitfunc.go: SplitFunc"]}
{"id": "C42", "title": "Ill-formed bytes are contained", "statement": "On arbitrary bytes each package segments the sequence of decoded pieces by its rules, with ill-formed pieces as characters without properties; only an incomplete encoding in the last three bytes is joined to the token before it.", "quantifier": "every byte sequence", "why_tests_cant": "Every kind of ill-formed sequence at every position in every text.", "anchors": ["graphemes/splitfunc.go: SplitFunc", "words/splitfunc.go: SplitFunc", "phrases/splitfunc.go: SplitFunc", "sentences/splitfunc.go: SplitFunc", "graphemes/trie.go: lookup", "words/trie.go: lookup", "phrases/trie.go: lookup", "sentences/trie.go: lookup"]}
{"id": "C43", "title": "Iterators do not interfere", "statement": "Any interleaving of calls on any number of iterators gives each of them the same results as its calls alone.", "quantifier": "every number of iterators, every interleaving of their histories", "why_tests_cant": "All schedules.", "anchors": ["graphemes/iterator.go: Iterator.Next, Value", "words/iterator.go: Iterator.Next, Value", "phrases/iterator.go: Iterator.Next, Value", "sentences/iterator.go: Iterator.Next, Value"]}
{"id": "C44", "title": "The internal iterator follows its split function", "statement": "The tokens of internal/iterators.Iterator are those its split function gives when applied repeatedly to the remaining text, and First is the first of them wherever the iterator stands. The shortcut for a single remaining byte changes nothing.", "quantifier": "every well-behaved split function, every byte sequence, every position", "why_tests_cant": "Every split function and every text.", "anchors": ["internal/iterators/iterator.go: Iterator.Next, First"]}
{"id": "C45", "title": "No split function takes an iterator out of the text", "statement": "Whatever function is given to Split, a call of Next either reports the end at the end of the text, or moves over at least one byte and stays in the text so that Value is a non-empty piece of it, or panics.", "quantifier": "every function of the right type, however it behaves, every iterator within its text", "why_tests_cant": "Every function, also ones returning errors, negative or too large advances.", "anchors": ["words/iterator.go: Iterator.Next, Split, Value", "internal/iterators/iterator.go: Iterator.Next, Split, Value"]}
{"id": "C46", "title": "The generator's tables give back what was inserted", "statement": "Inserting runes with values into the generator's trie succeeds exactly if every rune with a value other than 0 is a Unicode scalar value, and the order does not matter. If no two different nodes of the tree have the same checksum, lookup in the printed tables gives every character the value inserted last for it (0 if there is none) and the length of its encoding, and stays within the tables on every non-empty byte sequence.", "quantifier": "every list of insertions, every checksum function, every character and every following text", "why_tests_cant": "Every set of properties and every checksum; the sharing of blocks depends on all values.", "anchors": ["internal/gen/triegen/triegen.go: NewTrie, Insert, computeOffsets, Gen", "internal/gen/triegen/compact.go: simpleCompacter.Store", "internal/gen/triegen/print.go: printIndex, lookup template"]}
{"id": "C47", "title": "The shipped tables are what the generator prints", "statement": "The two tables and the checksum in each trie.go are exactly those the generator prints, with CRC-64, for any list of insertions that gives every character the value it has in the table. So nothing in the tables was edited by hand, and they depend on the values of the characters only.", "quantifier": "every list of insertions with the values of the table, four packages", "why_tests_cant": "Every list of insertions in every order.", "anchors": ["graphemes/trie.go: tables, checksum", "words/trie.go", "phrases/trie.go", "sentences/trie.go", "internal/gen/triegen/triegen.go: Gen"]}
{"id": "C48", "title": "Bits of the properties", "statement": "In the generator the bit of a property is set in the value of a rune exactly if the rune is listed under that property; values fit into as many bits as there are properties; lookup in the printed tables gives these values, in whichever order Go visits its maps. With the names used by the four packages the bits are the constants in trie.go.", "quantifier": "every map of names to runes with at most 64 names, every visiting order, every character", "why_tests_cant": "Every assignment of runes and every map order.", "anchors": ["internal/gen/main.go: generateTrie", "graphemes/trie.go: constants", "words/trie.go", "phrases/trie.go", "sentences/trie.go"]}
{"id": "C49", "title": "Any sequence of calls behaves like a reference iterator", "statement": "Every sequence of calls on an iterator of any of the four packages (Next, Value, Start, End, First, Reset, SetText and the option setters, in any order) gives the same observations as a reference iterator that consists only of the options, the text before the current token, the token and the text after it, where Next takes the first token of the text after it and setting options changes nothing but the options.", "quantifier": "every package, every text, every finite sequence of calls", "why_tests_cant": "Every interleaving of calls, including options set in the middle of an iteration.", "anchors": ["graphemes/iterator.go", "words/iterator.go", "phrases/iterator.go", "sentences/iterator.go", "internal/iterators/iterator.go"]}
{"id": "C50", "title": "Joiners, exactly", "statement": "For all middle and leading joiners, and on arbitrary bytes: each word that the split function gives is the first word of what is left by the word rules, where middle joiners count as MidNumLet after the first character, and leading joiners as AHLetter at the start, except that those ignored by WB4 stay as they are and newlines do so only if no letter or number follows, and then are no newlines; ill-formed bytes are U+FFFD for the joiners. The scanner gives these words; the iterator takes ASCII letters and digits before a space or the end as a word whatever the joiners are, and otherwise gives these words.", "quantifier": "all lists of joiners, all byte sequences", "why_tests_cant": "Every combination of joiners, including newlines, marks, spaces and U+FFFD, on every text.", "anchors": ["words/joiners.go", "words/splitfunc.go: (*Joiners).splitFunc", "words/iterator.go: Next"]}
{"id": "C51", "title": "Properties of characters", "statement": "For every character, the property values that lookup in the shipped tables gives are exactly those of the range tables of Unicode 15.0 (Grapheme_Cluster_Break, Indic_Conjunct_Break, Word_Break, Sentence_Break, Extended_Pictographic), apart from an explicit list of ranges changed since; the ideographic property of the Bleve functions is Word_Break=Katakana or one of the scripts Han and Hiragana. So the four segmentations conform to UAX #29 with properties given by ranges of code points, without mention of the tables.", "quantifier": "all 1112064 characters, all property values, all texts", "why_tests_cant": "The test files cover a few hundred characters; this covers every character, and every text made of them.", "anchors": ["graphemes/trie.go", "words/trie.go", "phrases/trie.go", "sentences/trie.go", "internal/gen/main.go:189-197"]}
{"id": "C52", "title": "Reading the property files", "statement": "For every text in the format of the Unicode property files, the generator reads exactly the code points that the file lists under each name. If the files list the property values of C51 (with emoji-data.txt and the Indic_Conjunct_Break file read first), then the generator, in whichever order it visits its maps, prints exactly the tables and checksums in the four trie.go files; and every value fits the integer type it chooses.", "quantifier": "all texts in the format, all property lists, all orders of map iteration", "why_tests_cant": "The generator has no tests, and it needs the network; the claim is about every file, every layout of blanks and comments, and every order.", "anchors": ["internal/gen/main.go:109-230", "internal/gen/main.go:313-344", "internal/gen/main.go:414-425", "internal/gen/triegen/triegen.go"]}
{"id": "C53", "title": "Reading the test files", "statement": "For every text in the format of the Unicode break test files whose lines are shorter than 65536 bytes, the generator reads exactly the listed tests, in order: the text in UTF-8 and its segments.", "quantifier": "all texts in the format", "why_tests_cant": "The generated tests are what the packages are tested with; nothing tests the reading itself.", "anchors": ["internal/gen/main.go:233-311"]}
{"id": "C54", "title": "Linear work", "statement": "Going through all tokens of a text takes a number of table lookups and byte tests that is at most linear in the length of the text: at most 4 per byte for graphemes (options off), 8 per byte for words with any joiners, 7 per byte for phrases. It is also at least one for every four bytes. (For sentences and with the ANSI options this does not hold, see C55.)", "quantifier": "all byte sequences, all joiners", "why_tests_cant": "Benchmarks measure a few friendly texts; the claim is about the worst text of every length, with every pattern of look-aheads.", "anchors": ["graphemes/splitfunc.go", "graphemes/iterator.go", "words/splitfunc.go", "words/joiners.go", "words/seek.go", "words/iterator.go", "phrases/splitfunc.go", "phrases/iterator.go"]}
{"id": "C55", "title": "Quadratic work", "statement": "In all packages, with any configuration, the work is at most quadratic in the length of the text. No linear bound holds for sentences (a full stop and n closing parentheses take n*n/2 lookups, because the search of SB8 starts anew at each of them), nor for graphemes with the ANSI options (n operating system commands without an end).", "quantifier": "all packages, all configurations, all byte sequences; for the lower bound, every factor", "why_tests_cant": "No finite set of timings shows a bound for all lengths; the texts with quadratic work are not in the benchmarks.", "anchors": ["sentences/splitfunc.go", "sentences/iterator.go", "graphemes/ansi.go", "graphemes/ansi8.go", "graphemes/iterator.go"]}
{"id": "C56", "title": "The generator prints the shipped files", "statement": "The text that the generator prints for trie.go, read as Go, declares the two arrays it has built, whatever was inserted; it declares one constant for every property, whose value is the bit that the arrays have for it, and an integer type with more bits than there are properties. A size in its comments is given in bytes and, rounded to the nearest hundredth, in KiB (whether it is the right size: see C77), and the checksum in hexadecimal. For the property values of the Unicode files it is the text of the four trie.go files in the repository up to white space, whichever order Go visits its maps in. Read as Go, these files declare exactly the arrays, the constants and the integer type that the other properties speak about, and all entries fit that type.", "quantifier": "all insertions, all maps of properties, all orders of visiting them; every line of the four files", "why_tests_cant": "The generator has no tests and needs the network; nothing checks that the tables in the repository are what the generator prints.", "anchors": ["internal/gen/main.go", "internal/gen/triegen/print.go", "internal/gen/triegen/triegen.go", "graphemes/trie.go", "words/trie.go", "phrases/trie.go", "sentences/trie.go"]}
{"id": "C57", "title": "Values are views of the caller's array", "statement": "Value is no copy: it is the part of the caller's array from Start to End, with the capacity of the text from Start on. Next and First look at the bytes that are in memory when they are called. No call panics, whatever the caller stores in the text between the calls. A program that stores nothing sees what it would see of an immutable text with the same bytes.", "quantifier": "every slice of every array, every memory, every sequence of calls and stores", "why_tests_cant": "Tests compare bytes and never change the text between calls; no test can see a copy, or all interleavings of stores.", "anchors": ["internal/iterators/iterator.go: Iterator.Next, Value, First, SetText", "words/iterator.go: Iterator.Next, Value", "graphemes/iterator.go: Iterator.Next, Value", "phrases/iterator.go: Iterator.Next, Value", "sentences/iterator.go: Iterator.Next, Value"]}
{"id": "C58", "title": "Stores behind the iterator do not disturb it; append to a token overwrites the text", "statement": "What the caller stores in the text before End, or outside of the text, does not change the further results of Next, Value, Start and End. Appending to a value overwrites the text from End on if the capacity of the text suffices, and otherwise does not touch the text.", "quantifier": "every slice, memory and program; every value and every bytes appended", "why_tests_cant": "A look-behind of one byte would show only for particular bytes stored at a particular moment.", "anchors": ["internal/iterators/iterator.go: Iterator.Next, Value", "words/iterator.go: Iterator.Next, Value", "graphemes/splitfunc.go", "words/splitfunc.go", "phrases/splitfunc.go", "sentences/splitfunc.go"]}
{"id": "C59", "title": "Tokens can be changed in place", "statement": "A loop that replaces each token in place by a function of it sees the tokens of the original text, and leaves in the text the changed tokens one after the other, and everything else as it was.", "quantifier": "every function on tokens, text, memory, package and configuration", "why_tests_cant": "Every function and text; the tests do not change texts.", "anchors": ["internal/iterators/iterator.go: Iterator.Next, Value", "words/iterator.go: Iterator.Next, Value", "graphemes/iterator.go: Iterator.Next, Value"]}
{"id": "C60", "title": "Value shows no bytes outside of the text", "statement": "Whatever function is given to Split, and whatever calls are made after a panic of Next from which the caller recovered, Value panics or is a part of the text.", "quantifier": "every function of the right type, every slice with any capacity, every sequence of calls", "why_tests_cant": "Needs a bad split function, a recovered panic and a slice with more capacity than length.", "anchors": ["words/iterator.go: Iterator.Next, Split, Value"]}
{"id": "C61", "title": "Words, phrases and sentences are made up of whole graphemes", "statement": "Every boundary between words, phrases or sentences is a boundary between graphemes (UAX #29, section 3: they should not occur within a grapheme cluster; README: graphemes are the finest granularity). Violated by the rules of UAX #29 themselves; the theorems give exactly the positions where it is, among the boundaries of the larger tokens: before Thai and Lao SARA AM, after Prepend characters, in conjuncts with consonants that are no ALetter, in flags after a regional indicator with a mark, and for sentences before emoji modifiers, after the Syriac abbreviation mark and in emoji sequences that begin with an exclamation mark. The tokens are unions of graphemes if and only if none of their boundaries is such a position; so they are for every text without such positions, and for every text in ASCII, Latin-1 and Latin Extended-A.", "quantifier": "every text in UTF-8", "why_tests_cant": "The tests of the three packages are separate, and the relation concerns every text and the three tables at once.", "anchors": ["README.md:17", "graphemes/splitfunc.go", "words/splitfunc.go", "phrases/splitfunc.go", "sentences/splitfunc.go", "graphemes/trie.go", "words/trie.go", "phrases/trie.go", "sentences/trie.go"]}
{"id": "C62", "title": "Sentences are made up of whole words and phrases", "statement": "Every boundary between sentences is a boundary between words and between phrases (README: in decreasing granularity sentences, phrases, words, graphemes). Violated; the theorems give exactly the positions where it is, among the boundaries of sentences: for words after a full stop between letters (a.א), after an Armenian full stop between digits, after a narrow no-break space, between a joiner and an emoji, before an emoji modifier and after the Syriac abbreviation mark; for phrases also after spaces and next to pictographs. Sentences are unions of words (or phrases) if and only if none of their boundaries is such a position; of words they are for every text in ASCII, Latin-1 and Latin Extended-A without a separate cedilla.", "quantifier": "every text in UTF-8", "why_tests_cant": "As for C61.", "anchors": ["README.md:17", "words/splitfunc.go", "phrases/splitfunc.go", "sentences/splitfunc.go", "words/trie.go", "phrases/trie.go", "sentences/trie.go"]}
{"id": "C63", "title": "Joiners only merge words", "statement": "Whatever the joiners are, every boundary between tokens with joiners is a boundary between words without joiners, so that each token is made up of whole words: joiners never cut a word. For iterators and scanners.", "quantifier": "every Joiners value (nil, any runes, also spaces, newlines and invalid ones), every byte sequence, every reader", "why_tests_cant": "Every set of joiners and every text; the rules with more properties could in principle also separate, for instance by a joiner that is a regional indicator or an ignored character.", "anchors": ["words/joiners.go", "words/splitfunc.go: (*Joiners).splitFunc", "words/iterator.go: Iterator.Next", "words/reader.go: FromReader"]}
{"id": "C64", "title": "Ill-formed bytes can be replaced before or after segmentation", "statement": "Replacing every ill-formed piece of a byte sequence by U+FFFD and then taking it apart gives the tokens of the byte sequence with the ill-formed pieces replaced; so a caller may sanitize text before or after. An incomplete encoding at the very end belongs to the last token. For the four packages and for words with joiners.", "quantifier": "every byte sequence, with any ill-formed bytes anywhere; every Joiners value", "why_tests_cant": "All byte sequences; it depends on U+FFFD having no property in any of the tables, on the widths DecodeRune and the trie lookup agree or disagree on, and on every rule treating a byte without properties alike.", "anchors": ["graphemes/trie.go: lookup", "words/trie.go: lookup", "phrases/trie.go: lookup", "sentences/trie.go: lookup", "words/splitfunc.go", "words/joiners.go", "sentences/splitfunc.go: SplitFunc"]}
{"id": "C65", "title": "The integers of the lookup are wide enough", "statement": "Looking up a character with the fixed-width integers of the code (property values and index entries of 32 or 16 bits, offsets n<<6+b in uint32) gives exactly what looking it up with unbounded numbers gives: no conversion, shift or sum loses a bit. The same for the test of properties (&) and for unions of them (|).", "quantifier": "every byte sequence, all four tables; every pair of property values", "why_tests_cant": "The index entries share the type property, which the generator chooses by the number of properties and not by the number of blocks; whether some path through the index wraps can only be excluded over all texts.", "anchors": ["graphemes/trie.go: lookup, lookupValue", "words/trie.go: lookup, lookupValue", "phrases/trie.go: lookup, lookupValue", "sentences/trie.go: lookup, lookupValue", "graphemes/splitfunc.go: property.is"]}
{"id": "C66", "title": "Words and phrases of ASCII text, without tables", "statement": "In ASCII text there is a boundary between two characters except: CR LF; two spaces; two of letters, digits and underscores; an apostrophe, period or colon between two letters, on both of its sides; an apostrophe, period, comma or semicolon between two digits, on both of its sides; and, for phrases, a space next to a letter or digit.", "quantifier": "every sequence of ASCII characters, every position", "why_tests_cant": "All ASCII texts; a test compares with expected tokens of chosen texts, this gives the tokens of every text without the property tables or the rules of the standard.", "anchors": ["words/splitfunc.go: SplitFunc", "phrases/splitfunc.go: SplitFunc", "words/trie.go: lookup", "phrases/trie.go: lookup"]}
{"id": "C67", "title": "Without terminators sentences are paragraphs", "statement": "In a text without a character of the property ATerm or STerm (in ASCII: without period, exclamation mark and question mark) a sentence ends exactly after LF, CR, NEL, U+2028 and U+2029, and not between CR and LF.", "quantifier": "every sequence of characters without terminators", "why_tests_cant": "All texts; it excludes that any of the other rules, or Close, Sp and Extend characters in any arrangement, ends a sentence.", "anchors": ["sentences/splitfunc.go: SplitFunc", "sentences/trie.go: lookup"]}
{"id": "C68", "title": "Only the properties of the characters count", "statement": "Exchanging ASCII characters for others with the same properties, throughout a text, does not move a boundary: the tokens of the new text are the tokens of the old one with the characters exchanged. So changing the case of ASCII letters before or after segmentation is the same for graphemes, words and phrases, and so is masking digits, capital and small letters (as 0, A, a) for all four packages.", "quantifier": "every byte sequence, ill-formed and cut off encodings included; every exchange of ASCII characters that keeps the properties", "why_tests_cant": "All texts and all exchanges; a special case for particular characters (as the fast path of the iterator has for letters and digits) shows only on texts that have it next to the right neighbours.", "anchors": ["graphemes/splitfunc.go: SplitFunc", "words/splitfunc.go: SplitFunc", "words/iterator.go: Next", "phrases/splitfunc.go: SplitFunc", "sentences/splitfunc.go: SplitFunc"]}
{"id": "C69", "title": "The printed tests are the tests", "statement": "Read as Go tokens, the file of tests that the generator prints (before gofmt) declares the type of a test and an array of exactly as many tests as were given, in their order, with the bytes of each input, the bytes of each expected token, and each comment as they were, whatever has to be escaped in the comment. The textual replacement of `[]uint8{` in the finished file would also change a comment that contains it, so this is required not to occur; it does not occur if it does not occur in the downloaded file, and then the printed array has each test of that file.", "quantifier": "every list of tests with any bytes and any characters in the comments, every package, every well-formed file of tests (lines shorter than 65536 bytes), every notion of printable characters that excludes the line feed", "why_tests_cant": "All comments and byte sequences: the generator is run on one version of the files; quotes, backslashes, control characters and the replacement inside comments do not occur in them.", "anchors": ["internal/gen/main.go: writeTests", "internal/gen/main.go: generateTests"]}
{"id": "C70", "title": "The printed numbers fit into the printed type", "statement": "The Go text that the generator prints (before gofmt) compiles as far as the sizes of numbers go: every value in the printed table of values, every entry in the printed index and every constant can be represented in the printed type of the properties. For values and constants up to 64 properties this holds. The index has the same element type although its entries are numbers of blocks: from eight properties on they always fit, since Unicode has too few pages for more than 2^16 blocks; with fewer properties the type is uint8 and more than 255 different pages overflow it.", "quantifier": "every list of up to 64 properties with any runes, every order in which Go visits its maps, every package", "why_tests_cant": "The generator is run for four packages with 13 to 20 properties; data with few properties and many different pages, and the bound on the number of blocks for all data, are not tried.", "anchors": ["internal/gen/triegen/triegen.go: getIntType", "internal/gen/triegen/triegen.go: computeOffsets", "internal/gen/main.go: writeTrie"]}
{"id": "C71", "title": "Appending text changes at most the last two tokens", "statement": "Let the tokens of a be ts followed by tl, with at least two tokens in tl (for graphemes at least one). Then the tokens of a + b are ts, followed by the tokens of what tl and b are together. So a program that receives text piece by piece may use all tokens but the last two (graphemes: the last) at once and need only tokenize the others again. Neither a nor b needs to be valid UTF-8, and an encoding may be cut in two. The same holds for words with joiners, whatever they are, of the iterator and of the split function. Two cannot be replaced by one for words, phrases and sentences. With the ANSI option of graphemes no number is enough: an escape sequence that is cut off before its last byte is any number of tokens, and one with it.", "quantifier": "all four packages, every Joiners value, every byte sequence a and every byte sequence b", "why_tests_cant": "The rules of words and sentences look ahead over any number of characters; that what they look for is always within two tokens is a statement about all texts and all continuations.", "anchors": ["words/splitfunc.go: SplitFunc", "phrases/splitfunc.go: SplitFunc", "sentences/splitfunc.go: SplitFunc", "graphemes/splitfunc.go: SplitFunc"]}
{"id": "C72", "title": "Any text as a property file", "statement": "Whatever the text of a property file, the generator reads its lines in order, up to the last newline, and what follows that is not read. An empty line or a comment means nothing. In any other line the field before the first semicolon must be a hexadecimal number less than 2^31, or two such numbers with two dots in between (what follows a further pair of dots is ignored); otherwise the generator returns an error. A line without a semicolon is a panic (index out of range), and a range that ends with 7FFFFFFF does not end. Otherwise the line lists the numbers from the first to the second (only the first, if the second is less) under its name. The first line that stops the reading decides. So every number that is read fits a rune; and a text in the format of C52 means what it lists.", "quantifier": "all texts", "why_tests_cant": "The generator has no tests; the claim is about every text, malformed in whatever way.", "anchors": ["internal/gen/main.go:111-152", "internal/gen/main.go:313-344"]}
{"id": "C73", "title": "Reading may begin within a text", "statement": "Let b be a part of a text that does not begin with a continuation byte (80 to BF) and, for packages other than sentences, does not begin with a regional indicator (for words and phrases: also not after ignored characters). Let the tokens of b be ts followed by tl, with at least two tokens in ts for graphemes and sentences, three for words and phrases. Then for every text a the tokens of a + b end with tl, and the tokens before them are a followed by ts. So a program may go to any place in a large text, and after the first one or two tokens it has the tokens of the whole text; together with C71, the inner tokens of a window into a text are tokens of the text. Neither a nor b needs to be valid UTF-8. One token fewer is not enough, for any of the packages. For graphemes, words and phrases the condition on the first byte is needed. In a row of flags no number of tokens is enough: a row of pairs of regional indicators has no boundary in common with the same row after one more. For words with middle joiners other than the blank the same holds, with the same numbers of tokens.", "quantifier": "all four packages, every byte sequence b as described and every byte sequence a before it; for words every list of middle joiners without the blank", "why_tests_cant": "The rules look back over any number of characters (marks, regional indicators, conjuncts, pictographs, closing punctuation and spaces); that no text before a given one has influence on more than its first tokens is a statement about all texts and all that may be before them.", "anchors": ["words/splitfunc.go: SplitFunc", "phrases/splitfunc.go: SplitFunc", "sentences/splitfunc.go: SplitFunc", "graphemes/splitfunc.go: SplitFunc"]}
{"id": "C74", "title": "A boundary divides a text", "statement": "Let a text be a followed by b, where a does not end within an encoding (no bytes at its end are fewer than the first of them announces), and let there be a boundary between a and b: the tokens of a + b are ts followed by tl, and ts make a. Then the tokens of a alone are ts and the tokens of b alone are tl. So a text may be cut at any of its boundaries and the parts read apart from each other, and tokens in a row are the tokens of the text they make; whether there is a boundary at a place is the same as whether the tokens of the whole are those of the two parts. In UTF-8 all boundaries divide the text. Without the condition on the end of a it fails, for every package. It holds for words with any joiners as well, for the iterator and for the split function, and for graphemes with the options for escape sequences, unless CAN or SUB comes after the boundary: a control string that is cancelled is a token only if what cancels it is there.", "quantifier": "all four packages with default options, words with all joiners and graphemes with all options; every byte sequence a as described and every byte sequence b", "why_tests_cant": "The rules look ahead over any number of ignored characters (words, phrases) and over any text without letters and terminators (sentences). That what is behind a boundary never has influence on the tokens before it is a statement about all texts and all that may follow.", "anchors": ["words/splitfunc.go: SplitFunc", "words/joiners.go: SplitFunc", "words/iterator.go: Next", "phrases/splitfunc.go: SplitFunc", "sentences/splitfunc.go: SplitFunc", "graphemes/splitfunc.go: SplitFunc", "graphemes/ansi.go: ansiEscapeLength"]}
{"id": "C75", "title": "Streams of any length", "statement": "A scanner over a reader that reports its error after its last bytes yields the tokens of all bytes delivered, one by one, then shows the error; it stops with ErrTooLong before a token exactly if as many bytes as its buffer may hold (the larger of the given buffer and the maximum token size) are still to come and the split function asks for more when it has that many. For a reader that reports the error together with its last bytes the same holds, except that it may go on if just that many bytes are left. Therefore, however long the stream, all tokens come if any two tokens in a row (for graphemes: each token) together with three bytes are less than the buffer may hold, 65536 bytes by default. The three bytes, and the second token, are needed: a character of four bytes that is not whole, and characters that a rule looks at beyond the end of the token. A token that is longer than the buffer may be always stops the scanner, and the tokens yielded are among those before it.", "quantifier": "all four packages, words with all joiners; every reader with every schedule of reads, every stream of any length, every buffer and maximum token size", "why_tests_cant": "Streams have any length, and what the scanner holds at a time depends on the schedule of reads and on how its buffer has grown; that no point of any stream needs more than two tokens and three bytes is a statement about all of them.", "anchors": ["graphemes/reader.go: FromReader", "words/reader.go: FromReader, Scanner.Joiners", "phrases/reader.go: FromReader", "sentences/reader.go: FromReader", "graphemes/splitfunc.go: splitFunc", "words/splitfunc.go: splitFunc", "words/seek.go: subsequent", "sentences/splitfunc.go: splitFunc"]}
{"id": "C76", "title": "Any text as a file of tests", "statement": "Whatever the text of a test file, the generator reads its lines in order, without the carriage return at the end of a line. A line of 65536 bytes or more is an error. A line that begins with a number sign means nothing. An empty line and any other line without a number sign is a panic (index out of range). Any other line is a test: its comment is what follows the first number sign up to the second, trimmed; what stands before is cut at the signs ÷, and each part of at least four bytes is a segment; a segment is cut at spaces, and each part of at least four bytes must be a hexadecimal number less than 2^31, else the generator returns an error; a number that is not a Unicode scalar value is a panic; otherwise it is that character. Shorter parts are ignored, so a number of less than four digits is lost without an error. The first line, and the first number in it, that stops the reading decides. The expected segments are the segments in UTF-8, and the input is their concatenation. Reading always ends, and a text in the format of C53 means the tests that it lists.", "quantifier": "all texts", "why_tests_cant": "The generator has no tests, and its input is one file; the claim is about every text, malformed in whatever way.", "anchors": ["internal/gen/main.go:239-311"]}
{"id": "C77", "title": "The sizes in the comments of the tables", "statement": "The comments that the generator prints over the tables give the numbers of blocks, entries and bytes of the table below, and the total gives the sum of the bytes. The numbers of blocks and entries are right. The number of bytes is the number of entries times the smallest size of an integer for the values inserted, or for the numbers of blocks, although the declared element type is property in both tables; so it is right exactly if property is the smallest type for them. In graphemes/trie.go, words/trie.go and phrases/trie.go the size of the index is wrong (1600, 4608 and 3456 bytes instead of 6400, 9216 and 6912) and so is the total; in sentences/trie.go all sizes are right.", "quantifier": "all insertions, all maps of properties, all packages; the four files", "why_tests_cant": "Nothing compares the comments with the declarations; when they agree is a question about all data that may be inserted.", "anchors": ["internal/gen/triegen/triegen.go: getIntType", "internal/gen/triegen/triegen.go: build", "internal/gen/triegen/print.go:17-22", "graphemes/trie.go:91", "graphemes/trie.go:1589", "words/trie.go:94", "words/trie.go:3549", "phrases/trie.go:93", "phrases/trie.go:3381", "sentences/trie.go:88"]}
{"id": "C78", "title": "The text of lookup and subsequent", "statement": "Read as Go, the text of trie.go (with the two arrays as they are declared) and of seek.go defines functions lookup and subsequent with the results of the model: lookup for every text, and subsequent for every text, set of properties and value of atEOF, provided calls may nest deeply enough and loops may run as many passes as the text has bytes and one more. The numbers have their Go types: sums and shifts drop what does not fit.", "quantifier": "all texts, properties and flags; all bounds from the given ones on", "why_tests_cant": "The model is a transcription; that it transcribes the code correctly is not something a test of the code can say, and no test of either covers all texts.", "anchors": ["graphemes/trie.go: lookup", "graphemes/trie.go: lookupValue", "words/trie.go: lookup", "phrases/trie.go: lookup", "sentences/trie.go: lookup", "words/seek.go", "phrases/seek.go", "sentences/seek.go"]}
{"id": "C79", "title": "The text of the split functions", "statement": "Read as Go, the text of splitfunc.go in each of the four packages, with the other files of the package, defines a function splitFunc whose results are those of the model's split function: advance, token and error, for every text and both values of atEOF, provided calls may nest five deep and loops may run twice as many passes as the text has bytes and two more. In particular no index or slice expression in it is out of range, and its loops end.", "quantifier": "all texts and flags; all bounds from the given ones on", "why_tests_cant": "The theorems about the split functions hold of the model; this one is why they hold of the program. It is about every text.", "anchors": ["graphemes/splitfunc.go", "words/splitfunc.go", "phrases/splitfunc.go", "sentences/splitfunc.go"]}
{"id": "C80", "title": "The text of the split function with joiners", "statement": "Read as Go, the text of (*Joiners).splitFunc and of what it calls defines a function with the results of the model, for every pointer to Joiners (nil too, and with nil or any slices in its fields), every text and both values of atEOF, whether the type argument is string, []byte or a named type (decodeRune distinguishes them), provided loops may also run as often as the slices have runes and once more.", "quantifier": "all joiners, texts, flags and type arguments; all bounds from the given ones on", "why_tests_cant": "A test tries a few joiners and texts.", "anchors": ["words/splitfunc.go: (*Joiners).splitFunc", "words/splitfunc.go: decodeRune", "words/joiners.go: runesContain", "words/joiners.go"]}
{"id": "C81", "title": "The text of the escape sequence functions", "statement": "Read as Go, the text of ansi.go and ansi8.go defines functions ansiEscapeLength and ansiEscapeLength8Bit that return the lengths of the model for every text, provided calls may nest two deep and loops may run as many passes as the text has bytes and one more.", "quantifier": "all texts; all bounds from the given ones on", "why_tests_cant": "The functions have loops over parameter, intermediate and string bytes; a test tries a few sequences.", "anchors": ["graphemes/ansi.go", "graphemes/ansi8.go"]}
{"id": "C82", "title": "The text of the functions for Bleve", "statement": "Read as Go, the text of bleve_compat.go defines functions BleveNumeric and BleveIdeographic that return what the model returns, for every token, provided calls may nest four deep and loops may run as many passes as the token has bytes and one more.", "quantifier": "all tokens; all bounds from the given ones on", "why_tests_cant": "A test tries a few tokens.", "anchors": ["words/bleve_compat.go"]}
{"id": "C83", "title": "The text of the methods of a words iterator", "statement": "Read as Go, the text of words/iterator.go defines methods Next, First and Split that do what the model says, with the iterator they leave behind, also after a panic: Next and First for every text and position and every function value whose calls behave as some split function does, well-behaved or not, from the package or from the user; Split for every function value. Loops may run as many passes as the text has bytes.", "quantifier": "all iterators, split functions, texts and positions; all bounds from the given ones on", "why_tests_cant": "Next has a fast path and three checks on what a split function of the user returned; tests use the function of the package.", "anchors": ["words/iterator.go: Next", "words/iterator.go: First", "words/iterator.go: Split"]}
{"id": "C84", "title": "The text of the iterators, under any sequence of calls", "statement": "Read as Go, the text of each of the four packages gives the user of an iterator made by FromString or FromBytes the observations of the model, in any sequence of calls of Next, Value, Start, End, First, Reset, SetText, of the option fields (graphemes) and of Joiners (words), also after panics, provided calls may nest seven deep and loops may run twice as many passes as the longest text has bytes and two more, and more than any list of joiners has runes. The methods do so with the receivers that the text gives them, pointers or values, and First on a copy.", "quantifier": "all packages, texts, sequences of calls and configurations; all bounds from the given ones on", "why_tests_cant": "Every theorem about histories of an iterator is about the model; this one carries them over to the program, for all histories.", "anchors": ["graphemes/iterator.go", "words/iterator.go", "words/joiners.go", "phrases/iterator.go", "sentences/iterator.go"]}
{"id": "C85", "title": "The text of the packages segments as UAX #29 says", "statement": "Read as Go, the text of each package cuts any text of characters in UTF-8, in the loop for it.Next() { use(it.Value()) } over an iterator of FromString or FromBytes, into non-empty tokens that join to the text, with a boundary exactly where the rules of UAX #29 (and of phrases) put one for the classes of the characters, provided calls may nest six deep and loops may run twice as many passes as the text has bytes and two more.", "quantifier": "all packages and texts of characters; all bounds from the given ones on", "why_tests_cant": "This is the purpose of the library, stated of its source text and not of a transcription; the test files are samples.", "anchors": ["graphemes", "words", "phrases", "sentences"]}
{"id": "C86", "title": "The text of internal/iterators", "statement": "Read as Go, the text of internal/iterators/iterator.go defines New, Next, First, Value, Start, End, Reset, SetText and Split that do what the model says, for every text, state and function value whose calls behave as some split function does. With a well-behaved split function the loop over an iterator of New gives the tokens of that function.", "quantifier": "all iterators, split functions, texts and positions", "why_tests_cant": "The split function is the user's; tests try a few.", "anchors": ["internal/iterators/iterator.go"]}
{"id": "C87", "title": "The text of the filter", "statement": "Read as Go, the text of internal/iterators/filter/filter.go defines a function AlphaNumeric that returns what the model returns, for every token and whatever unicode.IsLetter and unicode.IsNumber are, provided loops may run as many passes as the token has bytes and one more.", "quantifier": "all tokens and all predicates in the place of unicode.IsLetter and unicode.IsNumber", "why_tests_cant": "A test tries a few tokens.", "anchors": ["internal/iterators/filter/filter.go"]}
{"id": "C88", "title": "The text of the variables SplitFunc", "statement": "Read as Go, the text of each of the four packages gives the exported variable SplitFunc a function as its value whose results are those of the model's split function, for every text and both values of atEOF, provided calls may nest five deep and loops may run twice as many passes as the text has bytes and two more.", "quantifier": "all texts and flags; all bounds from the given ones on", "why_tests_cant": "SplitFunc is what a user of bufio.Scanner gets; this makes the theorems about the model's split functions theorems about it, for every text.", "anchors": ["graphemes/splitfunc.go: SplitFunc", "words/splitfunc.go: SplitFunc", "phrases/splitfunc.go: SplitFunc", "sentences/splitfunc.go: SplitFunc"]}
{"id": "C89", "title": "The text of FromReader", "statement": "Read as Go, the text of each of the four packages defines a function FromReader that returns a Scanner over the reader it is given. The split function that this scanner has returns what the model's split function returns, for every text and both values of atEOF, provided calls may nest five deep and loops may run twice as many passes as the text has bytes and two more.", "quantifier": "all readers, texts and flags; all bounds from the given ones on", "why_tests_cant": "A scanner calls its split function with every kind of window of the text; a test sees a few of them.", "anchors": ["graphemes/reader.go", "words/reader.go", "phrases/reader.go", "sentences/reader.go"]}
{"id": "C90", "title": "The text of Joiners of a words scanner", "statement": "Read as Go, the text of words defines a method Joiners of Scanner that keeps the reader of the scanner and gives it a split function that returns what the model's split function with these joiners returns, for every text and both values of atEOF, also for a nil pointer, and whatever split function the scanner had before.", "quantifier": "all readers, split functions, joiners, texts and flags; all bounds from the given ones on", "why_tests_cant": "A test tries a few joiners on a few texts.", "anchors": ["words/reader.go: Joiners"]}
{"id": "C91", "title": "The scanners of the text conform to UAX #29", "statement": "Read as Go, the text of each of the four packages defines a function FromReader with the following property. If a reader delivers the UTF-8 of some characters, in whatever pieces, then the scanner yields segments of these characters that begin and end exactly where the rules of UAX #29 for grapheme clusters, words and sentences, and the rules for phrases, have boundaries, and then shows the reader's error, provided no segment (for grapheme clusters) and no two segments in a row (for the others) come within three bytes of the 65536 bytes of the scanner's buffer. For words, a call of Joiners of the scanner before gives the words by the rules with these joiners (C50) instead, whatever bytes are delivered.", "quantifier": "all sequences of characters, all readers and ways to cut the text into reads, all errors, all joiners", "why_tests_cant": "The ways to cut a text into reads are unbounded, and each cut is a possible wrong boundary.", "anchors": ["graphemes/reader.go: FromReader", "words/reader.go: FromReader", "phrases/reader.go: FromReader", "sentences/reader.go: FromReader"]}
{"id": "C92", "title": "Sentences of ASCII text, without tables", "statement": "In ASCII text a sentence ends at the end of a line (but not between CR and LF), and after a period, exclamation or question mark with any quotes and brackets and then any blanks after it, unless the text goes on with an end of line, a blank, another terminator, a comma, hyphen, colon or semicolon, or with a quote or bracket directly after them. A period does not end a sentence if the first letter, end of line or terminator after it is a small letter (etc. (and so on)), directly before a digit (3.4), and directly between a letter and a capital letter (U.S). Nowhere else.", "quantifier": "every sequence of ASCII characters, every position", "why_tests_cant": "Infinitely many texts; the rules look back over brackets and blanks and ahead over any number of characters.", "anchors": ["sentences/splitfunc.go: SplitFunc", "sentences/iterator.go: Iterator.Next", "sentences/trie.go"]}
{"id": "C93", "title": "Marks and format characters do not change boundaries", "statement": "Inserting any number of Extend or Format characters after a character of a text changes none of the boundaries: the words, phrases and sentences are the same as before, with the inserted characters in the token of the character before them. The character before them must be no line end, and for words and phrases no ZWJ and (for words) no blank of class WSegSpace.", "quantifier": "every text, every position, every number and choice of Extend and Format characters", "why_tests_cant": "Infinitely many texts and insertions; every rule of the split functions has to skip the inserted characters, looking back and looking ahead.", "anchors": ["words/splitfunc.go: SplitFunc", "words/seek.go: subsequent", "phrases/splitfunc.go: SplitFunc", "sentences/splitfunc.go: SplitFunc"]}
{"id": "C94", "title": "What words look like", "statement": "Let a word have no ZWJ with a pictograph directly after it (an emoji sequence). If it has a character without word properties (an ideograph, a symbol) or only a pictograph, it is this character with marks after it. If it has a blank, it is blanks with marks after them. If it has a regional indicator, it is one or two of them with marks. Punctuation is a word of its own with marks after it, or it is between two letters, between two digits, or a quotation mark with Hebrew letters, marks not counted. So a word of letters and digits never begins with punctuation and ends with it only in Hebrew.", "quantifier": "every text in UTF-8, every word of it, every character of the word", "why_tests_cant": "Infinitely many texts; the rules decide position by position, and this is what follows for whole words.", "anchors": ["words/splitfunc.go: SplitFunc", "words/iterator.go: Iterator.Next", "words/trie.go"]}
{"id": "C95", "title": "How sentences end", "statement": "Every sentence of a text but the last one ends with a line end or separator, or with a terminator (full stop, exclamation mark, question mark, ...) and then any closing characters (quotation marks, brackets) and then any blanks, where marks and format characters may be after each of them.", "quantifier": "every text in UTF-8, every sentence but the last", "why_tests_cant": "Infinitely many texts; a rule that breaks where nothing ends a sentence would show only on texts the tests do not have.", "anchors": ["sentences/splitfunc.go: SplitFunc", "sentences/iterator.go: Iterator.Next", "sentences/trie.go"]}
{"id": "C96", "title": "Runs are not divided", "statement": "Whatever text is before and after it: a run of letters, digits and connecting punctuation (like the underscore) is never divided by words, a run of letters, digits, blanks and pictographs is never divided by phrases, and a run of characters that are no terminators, closing characters, blanks, line ends, separators, marks or format characters is never divided by sentences.", "quantifier": "every run of such characters of any length, every text before it and after it", "why_tests_cant": "Infinitely many runs and contexts; a state carried over from the text before (a look-back that is too long, a parity that is not reset) would divide the run only in some of them.", "anchors": ["words/splitfunc.go: SplitFunc", "phrases/splitfunc.go: SplitFunc", "sentences/splitfunc.go: SplitFunc"]}
{"id": "C97", "title": "Graphemes are the longest matches of the regular expression", "statement": "UAX #29 gives, besides the rules GB1 to GB999, a regular expression for extended grapheme clusters: crlf | Control | precore* core postcore*, where a core is a Hangul syllable, a pair of regional indicators, pictographs joined by ZWJ, consonants joined by linkers, or any other character. The graphemes of a text are the longest matches of this expression from left to right, and no other division of the text is. On arbitrary bytes the same holds with U+FFFD for every ill-formed sequence, where an encoding cut off at the end of the text belongs to the last grapheme. With the options for escape sequences, the graphemes are the escape sequences of the enabled kinds wherever the rest of the text begins with one, and else the longest match of the expression.", "quantifier": "every text in UTF-8 and every sequence of bytes, every division of it, all options", "why_tests_cant": "Infinitely many texts, and the expression matches texts of any length; that the rules and the expression agree is a statement about all of them.", "anchors": ["graphemes/splitfunc.go: SplitFunc", "graphemes/iterator.go: Iterator.Next", "graphemes/trie.go", "graphemes/ansi.go", "graphemes/ansi8.go"]}
{"id": "C98", "title": "Tokens are the longest texts that are one token", "statement": "In each of the four packages, every token is, when it is segmented alone, one token, and it is the longest part of the data from its start on that is one token alone and ends with a whole encoding. The second part also holds with joiners and with the options for escape sequences. The tokens of a text in UTF-8 are the only division of it with this property, also the words with any joiners. So the texts that are one token determine the tokens of all texts.", "quantifier": "every data (any bytes), every part of it that ends with a whole encoding, all four packages, all joiners and options; for uniqueness every text in UTF-8 and every division of it", "why_tests_cant": "Infinitely many texts and parts of them; the text after a position decides about it (letters after a full stop), and this must never divide what is one token alone.", "anchors": ["graphemes/splitfunc.go: SplitFunc", "words/splitfunc.go: SplitFunc", "phrases/splitfunc.go: SplitFunc", "sentences/splitfunc.go: SplitFunc"]}
{"id": "C99", "title": "Words, phrases and sentences are the longest matches of a grammar", "statement": "A text is one word exactly if it is: CR LF, a newline character, or pieces with a ZWJ before and a pictograph after each place where they meet. A piece is a run, blanks, two regional indicators, or any one character. A run is of letters and digits, of Katakana, and underscores next to any of these, where punctuation may be between two letters (can't), between two digits (3.14) and, if it is a double quote, between two Hebrew letters; after a Hebrew letter at its end there may be a single quote. Marks and format characters may come after each character (after the last one of the blanks). For phrases the same holds where a pictograph is a letter and blanks may be next to letters and digits. A text is one sentence exactly if it is an inside, terminators (each with closing characters and blanks after it) and a line end or separator, where each of the three may be missing but not all; inside there are terminators only with a comma or such after them (So?, he), or with a full stop as the last of them and a lower case letter before any other letter (etc. and), or with a full stop and a digit directly after it (3.4), or as a full stop directly between a cased letter and a capital one (U.S). The words (phrases, sentences) of a text are the longest matches of this grammar from left to right, and no other division of the text is. On arbitrary bytes the same holds with U+FFFD for every ill-formed sequence, where an encoding cut off at the end of the text belongs to the last token (for sentences: if there is none, see C42). With middle joiners that have no property or are punctuation already, the same holds for words with these characters between two letters or two digits, too; with leading joiners of this kind, it holds for words in which such a character at the start is like a Hebrew letter; on arbitrary bytes, too.", "quantifier": "every text in UTF-8 and every sequence of bytes, every division of it; words, phrases and sentences with default options, and words of iterators and scanners with any middle and leading joiners that are punctuation in this sense", "why_tests_cant": "Infinitely many texts, and the grammar matches texts of any length; that the loops with their look-ahead and look-behind accept exactly this grammar is a statement about all of them.", "anchors": ["words/splitfunc.go: SplitFunc", "phrases/splitfunc.go: SplitFunc", "sentences/splitfunc.go: SplitFunc", "words/trie.go", "phrases/trie.go", "sentences/trie.go", "words/joiners.go"]}
{"id": "C100", "title": "Hangul syllables may be written as one character or in parts", "statement": "Replace every precomposed Hangul syllable (U+AC00 to U+D7A3) of a text by its canonical decomposition: leading consonant, vowel and, if it has one, trailing consonant. Then the graphemes (words, phrases, sentences) of the new text are those of the old one, with their syllables replaced: no syllable is cut and no boundary moves. So two spellings of a text that differ only in this have the same tokens but for the spelling.", "quantifier": "every text in UTF-8, every mixture of syllables and parts in it; all four packages with default options", "why_tests_cant": "11172 syllables with any text around them; that no rule with look-ahead or look-behind tells a syllable from its parts depends on the tables for all of them and on the state that the loops carry over a syllable.", "anchors": ["graphemes/splitfunc.go: SplitFunc", "words/splitfunc.go: SplitFunc", "phrases/splitfunc.go: SplitFunc", "sentences/splitfunc.go: SplitFunc", "graphemes/trie.go", "words/trie.go", "phrases/trie.go", "sentences/trie.go"]}
{"id": "C101", "title": "Line ends may be written in any way", "statement": "Replace every line end of a text (CR LF, any other CR, NEL, line separator, paragraph separator) by LF. Then the graphemes (words, phrases, sentences) of the new text are those of the old one, with their line ends replaced. So two texts that differ only in how line ends are written have the same tokens but for the line ends.", "quantifier": "every text in UTF-8, every mixture of line ends in it; all four packages with default options", "why_tests_cant": "Infinitely many texts, and line ends are met by every rule that looks ahead or behind; CR LF is two characters in the loops and one line end here.", "anchors": ["graphemes/splitfunc.go: SplitFunc", "words/splitfunc.go: SplitFunc", "phrases/splitfunc.go: SplitFunc", "sentences/splitfunc.go: SplitFunc", "graphemes/trie.go", "words/trie.go", "phrases/trie.go", "sentences/trie.go"]}
{"id": "C102", "title": "The length of runs does not matter", "statement": "Replace characters of some kinds in a text, each by one or more characters with exactly the same property values. Then the tokens of the new text are those of the old one after the replacement. The kinds are, for graphemes: Extend, SpacingMark, Prepend and the Hangul parts L, V, T; for words: letters, numbers, Katakana, underscores (ExtendNumLet), blanks (WSegSpace), Extend, Format and ZWJ; for phrases: these and pictographs; for sentences: everything except full stops (ATerm) and the ends of paragraphs (Sep, CR, LF). These are all the kinds: a character may be written twice wherever it occurs, in every text, with the same tokens but for the repetition, exactly if it is of one of these kinds.", "quantifier": "every text in UTF-8, every replacement of characters of these kinds, also a different one for every character; graphemes, words, phrases and sentences with default options", "why_tests_cant": "Infinitely many texts, replacements and lengths; a loop that counts characters, or looks a fixed number of them ahead or behind, would pass tests with short words.", "anchors": ["graphemes/splitfunc.go: SplitFunc", "words/splitfunc.go: SplitFunc", "phrases/splitfunc.go: SplitFunc", "sentences/splitfunc.go: SplitFunc", "graphemes/trie.go", "words/trie.go", "phrases/trie.go", "sentences/trie.go"]}
{"id": "C103", "title": "Runs may be exchanged one by one", "statement": "Let two texts be made up of the same number of runs, where a run is one character, or any number of characters with exactly the same property values if these are of a kind listed in C102, and let the runs at the same place have the same property values. Then there is one division of the sequence of places that gives the tokens of both texts: the i-th tokens are made up of the runs at the same places. So changing names, numbers or the space between them in some places of a text moves no boundary elsewhere. The same holds for words with middle joiners other than the blank, where joiners form no runs.", "quantifier": "every two texts in UTF-8 and every division of them into runs of this kind; graphemes, words, phrases and sentences with default options, and words of iterators with any middle joiners other than the blank", "why_tests_cant": "Infinitely many pairs of texts; a test compares a text with expected tokens, not two texts with each other, and the change may be anywhere and of any length.", "anchors": ["graphemes/splitfunc.go: SplitFunc", "words/splitfunc.go: SplitFunc", "phrases/splitfunc.go: SplitFunc", "sentences/splitfunc.go: SplitFunc", "graphemes/trie.go", "words/trie.go", "phrases/trie.go", "sentences/trie.go", "words/joiners.go"]}
{"id": "C104", "title": "An edit changes only the tokens near it", "statement": "Let a part of a text be replaced by any other bytes (none, in a deletion; or let the part be empty, in an insertion). All tokens stay that have two more tokens (graphemes: one) between them and the begin of the edit, and all tokens after the edit stay that have three tokens (graphemes and sentences: two) between them and the end of the edit, unless the first of these three begins with a regional indicator (for words and phrases: also after ignored characters). So an editor need only tokenize a window around the edit again. If the old text is valid UTF-8 there is no other condition, and the edit may even begin and end within an encoding; if it is not, what is before the edit must not end within an encoding where the tokens between end, and the tokens after the edit must not begin with a continuation byte. For words the same holds with middle joiners other than the blank.", "quantifier": "every text, every edit of it, every new part, valid UTF-8 or not; all four packages with default options", "why_tests_cant": "Infinitely many texts and edits; tests tokenize whole texts and do not compare two versions of a text.", "anchors": ["graphemes/splitfunc.go: SplitFunc", "words/splitfunc.go: SplitFunc", "phrases/splitfunc.go: SplitFunc", "sentences/splitfunc.go: SplitFunc", "internal/iterators/iterator.go: Iterator.Next"]}
{"id": "C105", "title": "Text may be tokenized as it arrives", "statement": "Let a program get a text in parts. When a part comes, it tokenizes what it has kept together with the part, passes on all tokens but the last two (graphemes: the last one), and keeps the bytes of these; in the end it passes on the tokens of what it has kept. Then it passes on exactly the tokens of the whole text, wherever the text is divided, be it within words, numbers or encodings, and whatever the bytes are. The same holds for words with any joiners, where two tokens are kept.", "quantifier": "every sequence of bytes and every division of it into parts, also empty ones; all four packages with default options, and words of iterators with any joiners", "why_tests_cant": "Infinitely many texts, and many divisions of each of them; an error needs a division at just the place where a rule looks ahead.", "anchors": ["graphemes/splitfunc.go: SplitFunc", "words/splitfunc.go: SplitFunc", "phrases/splitfunc.go: SplitFunc", "sentences/splitfunc.go: SplitFunc", "internal/iterators/iterator.go: Iterator.Next", "words/joiners.go"]}
{"id": "C106", "title": "A text may be tokenized in parallel", "statement": "Let a UTF-8 text be divided into parts between characters. Let each part but the first have at least five tokens (graphemes: three; phrases: five; sentences: four), and let the text from its begin on not begin with a regional indicator (for words and phrases: also not after ignored characters; sentences: no condition). Let one worker for each part tokenize the part together with the bytes of the first three tokens of the next part (graphemes and sentences: two), and leave out as many tokens at the begin, but for the first worker. Then what the workers yield, one after the other, is the tokens of the text. A worker needs nothing but its part and the first tokens of the next one. For two parts of any bytes the same holds if the second does not begin with a continuation byte and the first one with the tokens taken over does not end within an encoding. For words the division of UTF-8 texts into parts works with middle joiners other than the blank, too. Two tokens in place of three are not enough for words.", "quantifier": "all four packages (words also with every list of middle joiners without the blank), every UTF-8 text and every division of it into parts as described; for two parts, all byte sequences as described", "why_tests_cant": "The rules look back and ahead over any number of characters, so a division may fall within any context; that three tokens are enough for every text and every division is a statement about all of them.", "anchors": ["words/splitfunc.go: SplitFunc", "phrases/splitfunc.go: SplitFunc", "sentences/splitfunc.go: SplitFunc", "graphemes/splitfunc.go: SplitFunc"]}
{"id": "C107", "title": "More text may remove a boundary, but makes none", "statement": "Let a UTF-8 text s be followed by more text t. Each boundary of s + t that lies within s is a boundary of s alone. So no token of s is divided when text is appended; it can only become part of a larger one. For words this also holds with middle joiners other than the blank. For any bytes: a + b has at least as many graphemes as a, and at most one word, phrase or sentence less than a. If b does not begin with a continuation byte or with a regional indicator (see C73), a + b has at most two words or phrases less than b alone, and at most one grapheme or sentence less. For text before a text the first claim is false: \") X\" is one sentence, but has a boundary after \"Go.\".", "quantifier": "all four packages, all UTF-8 texts s and t; for the numbers of tokens all byte sequences a and b", "why_tests_cant": "The look-ahead of the rules (WB6, WB7b, WB12 and SB8) goes over any number of characters, so what is appended may have influence on a boundary far before it; that it is only in one direction is a statement about all pairs of texts.", "anchors": ["words/splitfunc.go: SplitFunc", "phrases/splitfunc.go: SplitFunc", "sentences/splitfunc.go: SplitFunc", "graphemes/splitfunc.go: SplitFunc"]}
