{
"C01": "every package and configuration, and the default entry points",
"C03": "iterator calls from an iterator made by FromBytes or FromString; a user split function given to Split is outside",
"C08": "given the properties in the shipped table",
"C09": "given the properties in the shipped table",
"C10": "given the properties in the shipped table",
"C11": "given the properties in the shipped table",
"C16": "bufio.Scanner is modelled after its source; readers are scripts of byte chunks and errors",
"C17": "default options; words of UTF-8 with any joiners; C17_ansi: with the options, unless CAN or SUB comes after the token; C17_ansi_fails shows a cancelled control string that is not atomic",
"C18": "holds unless b is nothing but a cut off encoding; C18_iff shows that this is the exact condition, C18_tail what happens otherwise: such bytes are joined to the last token. C18_lines_utf8 is the full statement for well-formed b",
"C29": "holds if no leading joiner is a newline or ignored by WB4; C29_iff shows that this is the exact condition, C50 says what happens otherwise",
"C31": "holds if a space is not a middle joiner; C31_iff shows that this is the exact condition: the iterator's ASCII fast path ignores the joiner",
"C32": "holds if the split function takes runs of ASCII letters and digits before a space or the end as one token; C32_iff shows that this is the exact condition; C32_general says what happens for every well-behaved function",
"C33": "the tables of the two packages are shown to give the same properties (C33_classes)",
"C34": "the classes are those in the shipped table; C34_accepts says exactly which tokens are accepted",
"C35": "the classes are those in the shipped table",
"C36": "unicode.IsLetter and unicode.IsNumber are parameters",
"C42": "graphemes, words and phrases in full. Sentences if the data does not end with a cut off encoding; otherwise C42_sentences_fails shows a difference, and C42_sentences_cut says exactly what happens: SB8 takes the cut off encoding for a small letter; C42_sentences_iff: the full statement holds for such a text exactly if no boundary after a full stop, brackets and blanks has text without letters, line ends and terminators after it up to the end",
"C45": "for the two iterator types with a Split method, with 64-bit ints. Holds if the sum of position and advance does not overflow; C45_words_iff and C45_internal_iff show that this is the exact condition, C45_fails that Next returns true with a negative position otherwise. C45_words_any_partial and C45_internal_any_partial say what holds for all functions: Value is a piece of the text or panics",
"C46": "one trie without further Compacters, as /repo uses it; negative runes are not modelled",
"C47": "CRC-64 (hash/crc64) is modelled from its documented algorithm; that it reproduces the four checksums in trie.go confirms it",
"C48": "the names of the properties in the Unicode files are part of the statements for the packages",
"C49": "Transform is C44; operations on data of another type (FromString) are those on its bytes",
"C50": "describes what the code does where C29 and C31 are violated; properties as in the shipped table",
"C51": "the Unicode data is that of Perl 5.38 (Unicode 15.0); the lists of changed ranges are the difference to the shipped tables and not checked against another source",
"C52": "text without errors from the network; what the format excludes (last line without newline, semicolon in a comment, …) is shown by examples",
"C53": "lines of 65536 bytes or more, which bufio.Scanner refuses, are excluded",
"C54": "work is counted as calls of lookup plus bytes tested by the loops of Next; the decoding of a rune for a joiner counts with the lookup next to it",
"C55": "the same measure as C54; the bound for sentences and the ANSI options is the quadratic one, since a linear one is refuted",
"C56": "format.Source is not modelled, hence up to blanks, tabs and empty lines; names of properties contain no line break",
"C57": "iterators of the four packages over slices; an array is a function from indices to bytes, a slice has array, offset, length and capacity",
"C58": "First, Reset and SetText look at other parts of the text and are excluded in C58_behind",
"C59": "the change is made with copy(token, f(token))",
"C60": "holds for slices whose capacity is their length (and strings); C60_iff: for every slice with spare capacity it fails; C60_fails shows a slice with spare capacity where Value returns bytes behind the text. Overflow of the position (C45_fails) leads to panics of Value only",
"C61": "violated (C61_words_fails, C61_phrases_fails, C61_sentences_fails); the partial theorems give exactly the boundaries at which it is violated",
"C62": "violated (C62_words_fails, C62_phrases_fails); the partial theorems give exactly the boundaries at which it is violated",
"C64": "violated by sentences if the text ends with an incomplete encoding (C64_sentences_fails); proved otherwise, and for such texts C64_sentences_unions, and C64_sentences_iff: the exact condition",
"C70": "values and constants in full up to 64 properties; the index from eight properties on, or with at most 252 nodes; C70_fails: one property, 295 different pages, and the index does not fit into uint8",
"C75": "bufio.Scanner is modelled after its source; readers are scripts of byte chunks and errors",
"C76": "a text is a list of characters; a last line of exactly 65536 bytes without a newline counts as too long, whatever the reader",
"C77": "violated for the index in three of the four files (C77_fails); C77_sizes says what the comments say, C77_right_partial exactly when they are right",
"C78": "the reader (Spec/GoRead) and the meaning of Go (Spec/GoCode) are trusted here, instead of the transcription; int is not bounded",
"C79": "the reader (Spec/GoRead) and the meaning of Go (Spec/GoCode) are trusted here, instead of the transcription; int is not bounded",
"C80": "the reader (Spec/GoRead) and the meaning of Go (Spec/GoCode) are trusted here, instead of the transcription; int is not bounded",
"C81": "the reader (Spec/GoRead) and the meaning of Go (Spec/GoCode) are trusted here, instead of the transcription; int is not bounded",
"C82": "the reader (Spec/GoRead) and the meaning of Go (Spec/GoCode) are trusted here, instead of the transcription; int is not bounded",
"C83": "the reader (Spec/GoRead) and the meaning of Go (Spec/GoCode) are trusted here, instead of the transcription; int is not bounded",
"C84": "the reader (Spec/GoRead) and the meaning of Go (Spec/GoCode) are trusted here, instead of the transcription; int is not bounded; the fields of a Joiners are not changed after it was given to an iterator",
"C85": "the reader (Spec/GoRead) and the meaning of Go (Spec/GoCode) are trusted here, instead of the transcription; int is not bounded",
"C86": "the reader (Spec/GoRead) and the meaning of Go (Spec/GoCode) are trusted here, instead of the transcription; int is not bounded",
"C87": "the reader (Spec/GoRead) and the meaning of Go (Spec/GoCode) are trusted here, instead of the transcription; int is not bounded; utf8.DecodeRune is that of the model",
"C88": "the reader (Spec/GoRead) and the meaning of Go (Spec/GoCode) are trusted here, instead of the transcription; int is not bounded",
"C89": "the reader (Spec/GoRead) and the meaning of Go (Spec/GoCode) are trusted here, instead of the transcription; int is not bounded; a bufio.Scanner is its reader and its split function",
"C90": "the reader (Spec/GoRead) and the meaning of Go (Spec/GoCode) are trusted here, instead of the transcription; int is not bounded; a bufio.Scanner is its reader and its split function; the fields of a Joiners are not changed after it was given to a scanner",
"C91": "the reader (Spec/GoRead) and the meaning of Go (Spec/GoCode) are trusted here, instead of the transcription; int is not bounded; a bufio.Scanner is its reader and its split function; what the scanner does is Model/Scanner"
}
