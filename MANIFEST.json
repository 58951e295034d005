{"claims": [
{"property": "C01", "status": "proved", "theorems": ["Uax29.C01_lossless", "Uax29.C01_lossless_default"], "note": "every package and configuration, and the default entry points"},
{"property": "C02", "status": "proved", "theorems": ["Uax29.C02_ends"], "note": ""},
{"property": "C03", "status": "proved", "theorems": ["Uax29.C03_no_fault"], "note": "iterator calls from an iterator made by FromBytes or FromString; a user split function given to Split is outside"},
{"property": "C04", "status": "proved", "theorems": ["Uax29.C04_positions"], "note": ""},
{"property": "C05", "status": "proved", "theorems": ["Uax29.C05_first"], "note": ""},
{"property": "C06", "status": "proved", "theorems": ["Uax29.C06_reset", "Uax29.C06_setText"], "note": ""},
{"property": "C07", "status": "proved", "theorems": ["Uax29.C07_iterator", "Uax29.C07_scanner"], "note": ""},
{"property": "C08", "status": "proved", "theorems": ["Uax29.C08_conform"], "note": "given the properties in the shipped table"},
{"property": "C09", "status": "proved", "theorems": ["Uax29.C09_conform"], "note": "given the properties in the shipped table"},
{"property": "C10", "status": "proved", "theorems": ["Uax29.C10_unique", "Uax29.C10_conform"], "note": "given the properties in the shipped table"},
{"property": "C11", "status": "proved", "theorems": ["Uax29.C11_conform"], "note": "given the properties in the shipped table"},
{"property": "C12", "status": "proved", "theorems": ["Uax29.C12_fast_path"], "note": ""},
{"property": "C13", "status": "proved", "theorems": ["Uax29.C13_final"], "note": ""},
{"property": "C14", "status": "proved", "theorems": ["Uax29.C14_contract"], "note": ""},
{"property": "C15", "status": "proved", "theorems": ["Uax29.C15_chunking", "Uax29.C15_same"], "note": ""},
{"property": "C16", "status": "proved", "theorems": ["Uax29.C16_errors"], "note": "bufio.Scanner is modelled after its source; readers are scripts of byte chunks and errors"},
{"property": "C17", "status": "proved", "theorems": ["Uax29.C17_joiners", "Uax29.C17_ansi", "Uax29.C17_ansi_fails", "Uax29.C17_atomic"], "note": "default options; words of UTF-8 with any joiners; C17_ansi: with the options, unless CAN or SUB comes after the token; C17_ansi_fails shows a cancelled control string that is not atomic"},
{"property": "C18", "status": "partial", "theorems": ["Uax29.C18_tail", "Uax29.C18_iff", "Uax29.C18_lines_partial", "Uax29.C18_lines_utf8", "Uax29.C18_tail_fails"], "note": "holds unless b is nothing but a cut off encoding; C18_iff shows that this is the exact condition, C18_tail what happens otherwise: such bytes are joined to the last token. C18_lines_utf8 is the full statement for well-formed b"},
{"property": "C19", "status": "proved", "theorems": ["Uax29.C19_pair", "Uax29.C19_graphemes", "Uax29.C19_words", "Uax29.C19_phrases", "Uax29.C19_sentences", "Uax29.C19_bytes_pair", "Uax29.C19_bytes_graphemes", "Uax29.C19_bytes_words", "Uax29.C19_bytes_phrases", "Uax29.C19_bytes_sentences"], "note": ""},
{"property": "C20", "status": "proved", "theorems": ["Uax29.C20_marks", "Uax29.C20_bytes", "Uax29.C20_words", "Uax29.C20_phrases", "Uax29.C20_sentences"], "note": ""},
{"property": "C21", "status": "proved", "theorems": ["Uax29.C21_graphemes", "Uax29.C21_words", "Uax29.C21_phrases"], "note": ""},
{"property": "C22", "status": "proved", "theorems": ["Uax29.C22_emoji", "Uax29.C22_context", "Uax29.C22_words", "Uax29.C22_words_context", "Uax29.C22_phrases", "Uax29.C22_phrases_context"], "note": ""},
{"property": "C23", "status": "proved", "theorems": ["Uax29.C23_hangul", "Uax29.C23_context", "Uax29.C23_precomposed"], "note": ""},
{"property": "C24", "status": "proved", "theorems": ["Uax29.C24_next", "Uax29.C24_unique"], "note": ""},
{"property": "C25", "status": "proved", "theorems": ["Uax29.C25_next", "Uax29.C25_unique", "Uax29.C25_elsewhere"], "note": ""},
{"property": "C26", "status": "proved", "theorems": ["Uax29.C26_seven", "Uax29.C26_eight", "Uax29.C26_prefix"], "note": ""},
{"property": "C27", "status": "proved", "theorems": ["Uax29.C27_between"], "note": ""},
{"property": "C28", "status": "proved", "theorems": ["Uax29.C28_bytes", "Uax29.C28_middle"], "note": ""},
{"property": "C29", "status": "partial", "theorems": ["Uax29.C29_iff", "Uax29.C29_bytes_partial", "Uax29.C29_leading_partial", "Uax29.C29_newline_fails", "Uax29.C29_ignored_fails"], "note": "holds if no leading joiner is a newline or ignored by WB4; C29_iff shows that this is the exact condition, C50 says what happens otherwise"},
{"property": "C30", "status": "proved", "theorems": ["Uax29.C30_bytes", "Uax29.C30_empty", "Uax29.C30_unused"], "note": ""},
{"property": "C31", "status": "partial", "theorems": ["Uax29.C31_iff", "Uax29.C31_agree_partial", "Uax29.C31_space_fails"], "note": "holds if a space is not a middle joiner; C31_iff shows that this is the exact condition: the iterator's ASCII fast path ignores the joiner"},
{"property": "C32", "status": "partial", "theorems": ["Uax29.C32_general", "Uax29.C32_partial", "Uax29.C32_fails", "Uax29.C32_iff"], "note": "holds if the split function takes runs of ASCII letters and digits before a space or the end as one token; C32_iff shows that this is the exact condition; C32_general says what happens for every well-behaved function"},
{"property": "C33", "status": "proved", "theorems": ["Uax29.C33_classes", "Uax29.C33_unions"], "note": "the tables of the two packages are shown to give the same properties (C33_classes)"},
{"property": "C34", "status": "proved", "theorems": ["Uax29.C34_numeric", "Uax29.C34_total", "Uax29.C34_accepts"], "note": "the classes are those in the shipped table; C34_accepts says exactly which tokens are accepted"},
{"property": "C35", "status": "proved", "theorems": ["Uax29.C35_ideographic"], "note": "the classes are those in the shipped table"},
{"property": "C36", "status": "proved", "theorems": ["Uax29.C36_alphaNumeric"], "note": "unicode.IsLetter and unicode.IsNumber are parameters"},
{"property": "C37", "status": "proved", "theorems": ["Uax29.C37_total", "Uax29.C37_char"], "note": ""},
{"property": "C38", "status": "proved", "theorems": ["Uax29.C38_resume"], "note": ""},
{"property": "C39", "status": "proved", "theorems": ["Uax29.C39_append"], "note": ""},
{"property": "C40", "status": "proved", "theorems": ["Uax29.C40_ascii"], "note": ""},
{"property": "C41", "status": "proved", "theorems": ["Uax29.C41_runs"], "note": ""},
{"property": "C42", "status": "partial", "theorems": ["Uax29.C42_sentences_iff", "Uax29.C42_pieces", "Uax29.C42_graphemes", "Uax29.C42_words", "Uax29.C42_phrases", "Uax29.C42_sentences_cut", "Uax29.C42_sentences_partial", "Uax29.C42_sentences_fails"], "note": "graphemes, words and phrases in full. Sentences if the data does not end with a cut off encoding; otherwise C42_sentences_fails shows a difference, and C42_sentences_cut says exactly what happens: SB8 takes the cut off encoding for a small letter; C42_sentences_iff: the full statement holds for such a text exactly if no boundary after a full stop, brackets and blanks has text without letters, line ends and terminators after it up to the end"},
{"property": "C43", "status": "proved", "theorems": ["Uax29.C43_independent"], "note": ""},
{"property": "C44", "status": "proved", "theorems": ["Uax29.C44_tokens", "Uax29.C44_first"], "note": ""},
{"property": "C45", "status": "partial", "theorems": ["Uax29.C45_words_partial", "Uax29.C45_internal_partial", "Uax29.C45_words_any_partial", "Uax29.C45_internal_any_partial", "Uax29.C45_fails", "Uax29.C45_words_iff", "Uax29.C45_internal_iff"], "note": "for the two iterator types with a Split method, with 64-bit ints. Holds if the sum of position and advance does not overflow; C45_words_iff and C45_internal_iff show that this is the exact condition, C45_fails that Next returns true with a negative position otherwise. C45_words_any_partial and C45_internal_any_partial say what holds for all functions: Value is a piece of the text or panics"},
{"property": "C46", "status": "proved", "theorems": ["Uax29.C46_insert", "Uax29.C46_order", "Uax29.C46_round_trip", "Uax29.C46_in_bounds", "Uax29.C46_checksum"], "note": "one trie without further Compacters, as /repo uses it; negative runes are not modelled"},
{"property": "C47", "status": "proved", "theorems": ["Uax29.C47_graphemes", "Uax29.C47_words", "Uax29.C47_phrases", "Uax29.C47_sentences"], "note": "CRC-64 (hash/crc64) is modelled from its documented algorithm; that it reproduces the four checksums in trie.go confirms it"},
{"property": "C48", "status": "proved", "theorems": ["Uax29.C48_bits", "Uax29.C48_lookup", "Uax29.C48_graphemes", "Uax29.C48_words", "Uax29.C48_phrases", "Uax29.C48_sentences"], "note": "the names of the properties in the Unicode files are part of the statements for the packages"},
{"property": "C49", "status": "proved", "theorems": ["Uax29.C49_reference"], "note": "Transform is C44; operations on data of another type (FromString) are those on its bytes"},
{"property": "C50", "status": "proved", "theorems": ["Uax29.C50_split", "Uax29.C50_iterator", "Uax29.C50_scanner"], "note": "describes what the code does where C29 and C31 are violated; properties as in the shipped table"},
{"property": "C51", "status": "proved", "theorems": ["Uax29.C51_graphemes", "Uax29.C51_words", "Uax29.C51_phrases", "Uax29.C51_sentences", "Uax29.C51_sentence", "Uax29.C51_ideographic", "Uax29.C51_graphemes_conform", "Uax29.C51_words_conform", "Uax29.C51_sentences_conform", "Uax29.C51_phrases_conform"], "note": "the Unicode data is that of Perl 5.38 (Unicode 15.0); the lists of changed ranges are the difference to the shipped tables and not checked against another source"},
{"property": "C52", "status": "proved", "theorems": ["Uax29.C52_read", "Uax29.C52_words", "Uax29.C52_phrases", "Uax29.C52_graphemes", "Uax29.C52_sentences", "Uax29.C52_fit"], "note": "text without errors from the network; what the format excludes (last line without newline, semicolon in a comment, …) is shown by examples"},
{"property": "C53", "status": "proved", "theorems": ["Uax29.C53_read", "Uax29.C53_line"], "note": "lines of 65536 bytes or more, which bufio.Scanner refuses, are excluded"},
{"property": "C54", "status": "proved", "theorems": ["Uax29.C54_result", "Uax29.C54_graphemes", "Uax29.C54_words", "Uax29.C54_phrases", "Uax29.C54_lower"], "note": "work is counted as calls of lookup plus bytes tested by the loops of Next; the decoding of a rune for a joiner counts with the lookup next to it"},
{"property": "C55", "status": "proved", "theorems": ["Uax29.C55_quadratic", "Uax29.C55_sentences", "Uax29.C55_sentences_text", "Uax29.C55_ansi7", "Uax29.C55_ansi8"], "note": "the same measure as C54; the bound for sentences and the ANSI options is the quadratic one, since a linear one is refuted"},
{"property": "C56", "status": "proved", "theorems": ["Uax29.C56_type", "Uax29.C56_constants", "Uax29.C56_constant", "Uax29.C56_round_trip", "Uax29.C56_psize", "Uax29.C56_checksum", "Uax29.C56_words", "Uax29.C56_phrases", "Uax29.C56_graphemes", "Uax29.C56_sentences", "Uax29.C56_words_files", "Uax29.C56_phrases_files", "Uax29.C56_graphemes_files", "Uax29.C56_sentences_files", "Uax29.C56_words_tables", "Uax29.C56_phrases_tables", "Uax29.C56_graphemes_tables", "Uax29.C56_sentences_tables", "Uax29.C56_words_constants", "Uax29.C56_phrases_constants", "Uax29.C56_graphemes_constants", "Uax29.C56_sentences_constants"], "note": "format.Source is not modelled, hence up to blanks, tabs and empty lines; names of properties contain no line break"},
{"property": "C57", "status": "proved", "theorems": ["Uax29.C57_no_fault", "Uax29.C57_value", "Uax29.C57_next", "Uax29.C57_first", "Uax29.C57_bytes", "Uax29.C57_split"], "note": "iterators of the four packages over slices; an array is a function from indices to bytes, a slice has array, offset, length and capacity"},
{"property": "C58", "status": "proved", "theorems": ["Uax29.C58_behind", "Uax29.C58_append"], "note": "First, Reset and SetText look at other parts of the text and are excluded in C58_behind"},
{"property": "C59", "status": "proved", "theorems": ["Uax29.C59_in_place", "Uax29.C59_same_length"], "note": "the change is made with copy(token, f(token))"},
{"property": "C60", "status": "partial", "theorems": ["Uax29.C60_partial", "Uax29.C60_fails", "Uax29.C60_iff"], "note": "holds for slices whose capacity is their length (and strings); C60_iff: for every slice with spare capacity it fails; C60_fails shows a slice with spare capacity where Value returns bytes behind the text. Overflow of the position (C45_fails) leads to panics of Value only"},
{"property": "C61", "status": "partial", "theorems": ["Uax29.C61_words_partial", "Uax29.C61_phrases_partial", "Uax29.C61_sentences_partial", "Uax29.C61_latin", "Uax29.C61_words_fails", "Uax29.C61_phrases_fails", "Uax29.C61_sentences_fails", "Uax29.C61_bytes_partial", "Uax29.C61_sentences_bytes_partial"], "note": "violated (C61_words_fails, C61_phrases_fails, C61_sentences_fails); the partial theorems give exactly the boundaries at which it is violated"},
{"property": "C62", "status": "partial", "theorems": ["Uax29.C62_words_partial", "Uax29.C62_phrases_partial", "Uax29.C62_latin", "Uax29.C62_words_fails", "Uax29.C62_phrases_fails", "Uax29.C62_words_bytes_partial", "Uax29.C62_phrases_bytes_partial"], "note": "violated (C62_words_fails, C62_phrases_fails); the partial theorems give exactly the boundaries at which it is violated"},
{"property": "C63", "status": "proved", "theorems": ["Uax29.C63_iterator", "Uax29.C63_scanner"], "note": ""},
{"property": "C64", "status": "partial", "theorems": ["Uax29.C64_sentences_iff", "Uax29.C64_repair", "Uax29.C64_sentences_partial", "Uax29.C64_sentences_fails", "Uax29.C64_sentences_unions", "Uax29.C64_joiners"], "note": "violated by sentences if the text ends with an incomplete encoding (C64_sentences_fails); proved otherwise, and for such texts C64_sentences_unions, and C64_sentences_iff: the exact condition"},
{"property": "C65", "status": "proved", "theorems": ["Uax29.C65_lookup", "Uax29.C65_is", "Uax29.C65_or"], "note": ""},
{"property": "C66", "status": "proved", "theorems": ["Uax29.C66_words", "Uax29.C66_phrases"], "note": ""},
{"property": "C67", "status": "proved", "theorems": ["Uax29.C67_paragraphs", "Uax29.C67_ascii"], "note": ""},
{"property": "C68", "status": "proved", "theorems": ["Uax29.C68_graphemes", "Uax29.C68_words", "Uax29.C68_phrases", "Uax29.C68_sentences", "Uax29.C68_case", "Uax29.C68_mask"], "note": ""},
{"property": "C69", "status": "proved", "theorems": ["Uax29.Gen.C69_tokens", "Uax29.Gen.C69_file", "Uax29.Gen.C69_comment_fails"], "note": ""},
{"property": "C70", "status": "partial", "theorems": ["Uax29.C70_values", "Uax29.C70_constants", "Uax29.C70_index_partial", "Uax29.C70_fails"], "note": "values and constants in full up to 64 properties; the index from eight properties on, or with at most 252 nodes; C70_fails: one property, 295 different pages, and the index does not fit into uint8"},
{"property": "C71", "status": "proved", "theorems": ["Uax29.C71_append", "Uax29.C71_graphemes", "Uax29.C71_two", "Uax29.C71_joiners_split", "Uax29.C71_joiners", "Uax29.C71_ansi"], "note": ""},
{"property": "C72", "status": "proved", "theorems": ["Uax29.C72_read", "Uax29.C72_total", "Uax29.C72_format", "Uax29.C72_fits", "Uax29.C72_unfinished"], "note": ""},
{"property": "C73", "status": "proved", "theorems": ["Uax29.C73_sync", "Uax29.C73_window", "Uax29.C73_least", "Uax29.C73_fresh", "Uax29.C73_flags", "Uax29.C73_middle"], "note": ""},
{"property": "C74", "status": "proved", "theorems": ["Uax29.C74_divide", "Uax29.C74_iff", "Uax29.C74_run", "Uax29.C74_utf8", "Uax29.C74_cut", "Uax29.C74_joiners_split", "Uax29.C74_joiners", "Uax29.C74_ansi", "Uax29.C74_cancel"], "note": ""},
{"property": "C75", "status": "proved", "theorems": ["Uax29.C75_exact", "Uax29.C75_reader", "Uax29.C75_short", "Uax29.C75_default", "Uax29.C75_long"], "note": "bufio.Scanner is modelled after its source; readers are scripts of byte chunks and errors"},
{"property": "C76", "status": "proved", "theorems": ["Uax29.C76_read", "Uax29.C76_total", "Uax29.C76_ends", "Uax29.C76_format"], "note": "a text is a list of characters; a last line of exactly 65536 bytes without a newline counts as too long, whatever the reader"},
{"property": "C77", "status": "partial", "theorems": ["Uax29.C77_sizes", "Uax29.C77_right_partial", "Uax29.C77_graphemes", "Uax29.C77_words", "Uax29.C77_phrases", "Uax29.C77_sentences", "Uax29.C77_fails"], "note": "violated for the index in three of the four files (C77_fails); C77_sizes says what the comments say, C77_right_partial exactly when they are right"},
{"property": "C78", "status": "proved", "theorems": ["Uax29.C78_lookup_graphemes", "Uax29.C78_lookup_words", "Uax29.C78_lookup_phrases", "Uax29.C78_lookup_sentences", "Uax29.C78_subsequent_words", "Uax29.C78_subsequent_phrases", "Uax29.C78_subsequent_sentences"], "note": "the reader (Spec/GoRead) and the meaning of Go (Spec/GoCode) are trusted here, instead of the transcription; int is not bounded"},
{"property": "C79", "status": "proved", "theorems": ["Uax29.C79_graphemes", "Uax29.C79_words", "Uax29.C79_phrases", "Uax29.C79_sentences"], "note": "the reader (Spec/GoRead) and the meaning of Go (Spec/GoCode) are trusted here, instead of the transcription; int is not bounded"},
{"property": "C80", "status": "proved", "theorems": ["Uax29.C80_joiners"], "note": "the reader (Spec/GoRead) and the meaning of Go (Spec/GoCode) are trusted here, instead of the transcription; int is not bounded"},
{"property": "C81", "status": "proved", "theorems": ["Uax29.C81_ansiEscapeLength", "Uax29.C81_ansiEscapeLength8Bit"], "note": "the reader (Spec/GoRead) and the meaning of Go (Spec/GoCode) are trusted here, instead of the transcription; int is not bounded"},
{"property": "C82", "status": "proved", "theorems": ["Uax29.C82_numeric", "Uax29.C82_ideographic"], "note": "the reader (Spec/GoRead) and the meaning of Go (Spec/GoCode) are trusted here, instead of the transcription; int is not bounded"},
{"property": "C83", "status": "proved", "theorems": ["Uax29.C83_next", "Uax29.C83_first", "Uax29.C83_split"], "note": "the reader (Spec/GoRead) and the meaning of Go (Spec/GoCode) are trusted here, instead of the transcription; int is not bounded"},
{"property": "C84", "status": "proved", "theorems": ["Uax29.C84_graphemes", "Uax29.C84_words", "Uax29.C84_phrases", "Uax29.C84_sentences"], "note": "the reader (Spec/GoRead) and the meaning of Go (Spec/GoCode) are trusted here, instead of the transcription; int is not bounded; the fields of a Joiners are not changed after it was given to an iterator"},
{"property": "C85", "status": "proved", "theorems": ["Uax29.C85_graphemes", "Uax29.C85_words", "Uax29.C85_sentences", "Uax29.C85_phrases"], "note": "the reader (Spec/GoRead) and the meaning of Go (Spec/GoCode) are trusted here, instead of the transcription; int is not bounded"},
{"property": "C86", "status": "proved", "theorems": ["Uax29.C86_new", "Uax29.C86_next", "Uax29.C86_first", "Uax29.C86_methods", "Uax29.C86_tokens"], "note": "the reader (Spec/GoRead) and the meaning of Go (Spec/GoCode) are trusted here, instead of the transcription; int is not bounded"},
{"property": "C87", "status": "proved", "theorems": ["Uax29.C87_alphaNumeric"], "note": "the reader (Spec/GoRead) and the meaning of Go (Spec/GoCode) are trusted here, instead of the transcription; int is not bounded; utf8.DecodeRune is that of the model"},
{"property": "C88", "status": "proved", "theorems": ["Uax29.C88_graphemes", "Uax29.C88_words", "Uax29.C88_phrases", "Uax29.C88_sentences"], "note": "the reader (Spec/GoRead) and the meaning of Go (Spec/GoCode) are trusted here, instead of the transcription; int is not bounded"},
{"property": "C89", "status": "proved", "theorems": ["Uax29.C89_graphemes", "Uax29.C89_words", "Uax29.C89_phrases", "Uax29.C89_sentences"], "note": "the reader (Spec/GoRead) and the meaning of Go (Spec/GoCode) are trusted here, instead of the transcription; int is not bounded; a bufio.Scanner is its reader and its split function"},
{"property": "C90", "status": "proved", "theorems": ["Uax29.C90_joiners"], "note": "the reader (Spec/GoRead) and the meaning of Go (Spec/GoCode) are trusted here, instead of the transcription; int is not bounded; a bufio.Scanner is its reader and its split function; the fields of a Joiners are not changed after it was given to a scanner"},
{"property": "C91", "status": "proved", "theorems": ["Uax29.C91_graphemes", "Uax29.C91_words", "Uax29.C91_phrases", "Uax29.C91_sentences", "Uax29.C91_joiners"], "note": "the reader (Spec/GoRead) and the meaning of Go (Spec/GoCode) are trusted here, instead of the transcription; int is not bounded; a bufio.Scanner is its reader and its split function; what the scanner does is Model/Scanner"},
{"property": "C92", "status": "proved", "theorems": ["Uax29.C92_sentences"], "note": ""},
{"property": "C93", "status": "proved", "theorems": ["Uax29.C93_words", "Uax29.C93_phrases", "Uax29.C93_sentences"], "note": ""},
{"property": "C94", "status": "proved", "theorems": ["Uax29.C94_words"], "note": ""},
{"property": "C95", "status": "proved", "theorems": ["Uax29.C95_sentences"], "note": ""},
{"property": "C96", "status": "proved", "theorems": ["Uax29.C96_words", "Uax29.C96_phrases", "Uax29.C96_sentences"], "note": ""},
{"property": "C97", "status": "proved", "theorems": ["Uax29.C97_ansi", "Uax29.C97_ansi_bytes", "Uax29.C97_graphemes", "Uax29.C97_unique", "Uax29.C97_iff", "Uax29.C97_bytes"], "note": ""},
{"property": "C98", "status": "proved", "theorems": ["Uax29.C98_joiners_longest", "Uax29.C98_bytes", "Uax29.C98_joiners", "Uax29.C98_ansi", "Uax29.C98_longest"], "note": ""},
{"property": "C99", "status": "proved", "theorems": ["Uax29.C99_words_bytes", "Uax29.C99_phrases_bytes", "Uax29.C99_sentences_bytes", "Uax29.C99_middle", "Uax29.C99_middle_scanner", "Uax29.C99_joiners", "Uax29.C99_joiners_scanner", "Uax29.C99_joiners_bytes", "Uax29.C99_sentence", "Uax29.C99_sentences", "Uax29.C99_word", "Uax29.C99_phrase", "Uax29.C99_words", "Uax29.C99_phrases"], "note": ""},
{"property": "C100", "status": "proved", "theorems": ["Uax29.C100_hangul", "Uax29.C100_spelling"], "note": ""},
{"property": "C101", "status": "proved", "theorems": ["Uax29.C101_newlines", "Uax29.C101_spelling"], "note": ""},
{"property": "C102", "status": "proved", "theorems": ["Uax29.C102_words_exact", "Uax29.C102_phrases_exact", "Uax29.C102_graphemes_exact", "Uax29.C102_sentences_exact", "Uax29.C102_graphemes", "Uax29.C102_words", "Uax29.C102_phrases", "Uax29.C102_sentences"], "note": ""},
{"property": "C103", "status": "proved", "theorems": ["Uax29.C103_words", "Uax29.C103_phrases", "Uax29.C103_graphemes", "Uax29.C103_sentences", "Uax29.C103_middle"], "note": ""},
{"property": "C104", "status": "proved", "theorems": ["Uax29.C104_edit", "Uax29.C104_utf8", "Uax29.C104_middle"], "note": ""},
{"property": "C105", "status": "proved", "theorems": ["Uax29.C105_stream", "Uax29.C105_joiners", "Uax29.C105_total"], "note": ""},
{"property": "C106", "status": "proved", "theorems": ["Uax29.C106_two", "Uax29.C106_parallel", "Uax29.C106_middle", "Uax29.C106_least"], "note": ""},
{"property": "C107", "status": "proved", "theorems": ["Uax29.C107_more", "Uax29.C107_middle", "Uax29.C107_count", "Uax29.C107_before"], "note": ""}
]}
