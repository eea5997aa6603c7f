{"id": "C01", "title": "Serialised tokens parse back to themselves", "statement": "Writing any list of tokens (names and field names made of ASCII letters/underscore, field names distinct inside a token, arbitrary field values) in the tagged-token wire format and parsing the text returns the same tokens, in the same order, with the same fields in the same order and with character-for-character equal values.", "quantifier": "every finite list of tokens and every Unicode value string, including values full of quotes, backslashes, braces and spaces", "why_tests_cant": "There are infinitely many token lists and values; tests only try a handful of escapes.", "anchors": ["tn/token_parser.py:TokenParser.parse", "tn/token_parser.py:Token.string", "tn/token_parser.py:escape_value"]}
{"id": "C02", "title": "Escaping of field values is lossless and self-delimiting", "statement": "escape_value is injective, the escaped text never contains an unescaped double quote, and the value reader applied to escaped text followed by a quote consumes exactly the escaped text and returns the original value, whatever follows the quote.", "quantifier": "every Unicode string used as a value and every continuation of the stream", "why_tests_cant": "Ambiguity can hide in any interleaving of backslashes and quotes of any length.", "anchors": ["tn/token_parser.py:escape_value", "tn/token_parser.py:TokenParser.parse_value"]}
{"id": "C03", "title": "The parser accepts exactly the wire grammar", "statement": "TokenParser.parse succeeds on a text if and only if the text is non-empty and is a sequence of optional-space separated blocks `name { key: \"value\" ... }` with distinct keys inside a block; in every other case it raises TokenParseError, and it always terminates.", "quantifier": "every input string", "why_tests_cant": "Both directions quantify over all strings; fuzzing cannot show that no malformed text is accepted or that no input loops.", "anchors": ["tn/token_parser.py:TokenParser.parse", "tn/token_parser.py:TokenParser.parse_key", "tn/token_parser.py:TokenParser.expect_chars"]}
{"id": "C04", "title": "Reordering never loses, duplicates or alters a field", "statement": "For every schema without repeated names, and every parsable stream, the reordered text parses to the same number of tokens with the same names in the same order, and every token has exactly the same set of (field, value) pairs, each once.", "quantifier": "every parsable stream and every schema mapping whose field lists have no repeats", "why_tests_cant": "Loss of a field only shows for particular combinations of token type, listed fields and extra fields.", "anchors": ["tn/token_parser.py:Token.string", "tn/token_parser.py:TokenParser.reorder"]}
{"id": "C05", "title": "Schema order is applied when order is not preserved", "statement": "If the token type is in the schema and preserve_order is not \"true\", the reordered token lists the declared fields that are present in the schema's order, followed by the undeclared fields in their original order.", "quantifier": "every parsable stream, schema and token", "why_tests_cant": "Holds for all subsets of fields and all original permutations.", "anchors": ["tn/token_parser.py:Token.string"]}
{"id": "C06", "title": "preserve_order and unknown token types keep the written order", "statement": "A token whose type is not in the schema, or that carries preserve_order: \"true\", is reordered to exactly its own fields in their written order.", "quantifier": "every parsable stream, schema and token", "why_tests_cant": "Same as C05; the exemption must hold for all field sets.", "anchors": ["tn/token_parser.py:Token.string"]}
{"id": "C07", "title": "Reordering is idempotent", "statement": "Reordering the output of reorder gives the same text again.", "quantifier": "every parsable, token-bearing stream and every repeat-free schema", "why_tests_cant": "A fixpoint claim over all streams.", "anchors": ["tn/token_parser.py:TokenParser.reorder", "tn/token_parser.py:Token.string"]}
{"id": "C08", "title": "Reported spans cut the reordered text into its tokens", "statement": "reorder_with_spans returns one span per token; the slice of the returned text at span i is the serialisation of token i; consecutive spans are separated by exactly one space and the spans cover the text from its first to its last character.", "quantifier": "every parsable stream and schema", "why_tests_cant": "Offsets must be right for all lengths of all tokens.", "anchors": ["tn/token_parser.py:TokenParser.reorder_with_spans"]}
{"id": "C09", "title": "A repeated field name is rejected", "statement": "If any token of the stream contains the same field name twice, parsing raises TokenParseError; conversely a token with distinct names is never rejected for that reason.", "quantifier": "every stream, every position and number of repeats", "why_tests_cant": "All positions of the repeated field.", "anchors": ["tn/token_parser.py:Token.append"]}
{"id": "C10", "title": "Parsed token positions slice the tagged text", "statement": "After parsing, the slice of the input between token.start and token.end is that token's written block, the spans are in increasing order without overlap, and everything outside the spans is spaces.", "quantifier": "every parsable stream, any spacing", "why_tests_cant": "The end offset has a special case at the end of the stream; alignment relies on it for all texts.", "anchors": ["tn/token_parser.py:TokenParser.parse"]}
{"id": "C11", "title": "The C++ UTF-8 splitter is lossless and splits valid text into code points", "statement": "For every byte string with no byte above 0xF7 the pieces concatenate to the input; for every well-formed UTF-8 string the pieces are exactly the encodings of its code points; a byte above 0xF7 in lead position aborts.", "quantifier": "every byte string; every sequence of Unicode scalar values", "why_tests_cant": "The set of byte strings is infinite.", "anchors": ["runtime/utils/wetext_string.cc:SplitUTF8StringToChars", "runtime/utils/wetext_string.cc:UTF8CharLength", "runtime/utils/wetext_string.cc:UTF8StringLength"]}
{"id": "C12", "title": "C++ and Python reorder agree on streams the grammars emit", "statement": "For every stream accepted by the Python parser whose escapes are only \\\" and \\\\ and whose schema-typed tokens only carry declared fields (unless preserved), the C++ runtime's reordering with the same schema yields the same text as Python's.", "quantifier": "every such stream and schema", "why_tests_cant": "The two implementations store values differently (decoded vs raw); equality must hold for all values.", "anchors": ["runtime/processor/wetext_token_parser.cc:TokenParser::Reorder", "runtime/processor/wetext_token_parser.h:Token::String", "tn/token_parser.py:TokenParser.reorder"]}
{"id": "C13", "title": "The C++ runtime keeps every field of a token", "statement": "Reordering in the C++ runtime keeps every (field, value) pair of every token, as the Python runtime does.", "quantifier": "every parsable stream and schema", "why_tests_cant": "Fails only for fields that the schema does not list; tests use listed fields.", "anchors": ["runtime/processor/wetext_token_parser.h:Token::String"]}
{"id": "C14", "title": "The C++ and Python runtimes use the same field orders", "statement": "For each of the six language/direction pairs the C++ runtime's schema is the same mapping as the Python pipeline's, so both present tokens to the verbalizer in the same order.", "quantifier": "every token of every pipeline", "why_tests_cant": "Tests run the C++ runtime on a few Chinese and English sentences only.", "anchors": ["runtime/processor/wetext_token_parser.cc:JA_TN_ORDERS", "tn/japanese/normalizer.py:TOKEN_ORDERS", "tn/chinese/normalizer.py:TOKEN_ORDERS", "tn/english/normalizer.py:TOKEN_ORDERS", "itn/chinese/inverse_normalizer.py:TOKEN_ORDERS"]}
{"id": "C15", "title": "The C++ parser rejects repeated fields as Python does", "statement": "A token with a repeated field name is rejected by the C++ runtime.", "quantifier": "every stream", "why_tests_cant": "Needs all positions; the C++ test suite has no such case.", "anchors": ["runtime/processor/wetext_token_parser.h:Token::Append"]}
{"id": "C16", "title": "C++ string helpers: trimming and splitting", "statement": "Trim removes exactly the leading and trailing ASCII whitespace and is idempotent; Split returns the pieces that, joined by the delimiter, give back the input, none of which contains the delimiter, for every non-empty delimiter.", "quantifier": "every byte string and every non-empty delimiter", "why_tests_cant": "Infinite domain.", "anchors": ["runtime/utils/wetext_string.cc:Trim", "runtime/utils/wetext_string.cc:Split"]}
{"id": "C17", "title": "The C++ runtime picks the pipeline from the graph's file name", "statement": "The token schema used by the C++ processor is the one of the language/direction in the tagger file's own name, whatever directory the file is in.", "quantifier": "every tagger path", "why_tests_cant": "Only particular directory names reveal the substring search over the whole path.", "anchors": ["runtime/processor/wetext_processor.cc:Processor::Processor"]}
{"id": "C18", "title": "Mapped output spans are ordered, disjoint and inside the output", "statement": "transduce_with_spans returns one output span per input token span; the spans are half-open character ranges inside the selected output, non-decreasing and non-overlapping; the internal overlap error can never be raised for ordered non-empty input spans.", "quantifier": "every linear transducer path, every text and every list of ordered non-empty token spans", "why_tests_cant": "Depends on every possible interleaving of consuming/emitting arcs.", "anchors": ["tn/alignment.py:transduce_with_spans"]}
{"id": "C19", "title": "Traced input spans are ordered, disjoint, non-empty and inside the input", "statement": "trace_input_spans returns, for each token, a non-empty half-open character range of the input; ranges are in order and do not overlap, or it raises AlignmentError.", "quantifier": "every linear path, every text and every ordered token span list", "why_tests_cant": "Every interleaving of arcs.", "anchors": ["tn/alignment.py:trace_input_spans"]}
{"id": "C20", "title": "Character and byte offsets convert exactly", "statement": "The character/byte boundary tables are mutually inverse on character boundaries, contain no other offsets, and slicing by characters equals decoding the byte slice.", "quantifier": "every text of any length mixing 1-4 byte characters", "why_tests_cant": "All mixtures of widths.", "anchors": ["tn/alignment.py:_text_boundaries", "tn/alignment.py:_character_spans_to_byte_spans"]}
{"id": "C21", "title": "Every output byte is attributed by the documented ownership rule", "statement": "An output byte lies in token i's span exactly when the path emitted it between token i's first and last owned emission; output emitted strictly inside a token's input range is always inside that token's span; whitespace emitted on a boundary without consuming input is not used to start or extend a span; a token that emits nothing gets a zero-width span.", "quantifier": "every path and token span list", "why_tests_cant": "Every interleaving of arcs.", "anchors": ["tn/alignment.py:transduce_with_spans"]}
{"id": "C22", "title": "Mapping records describe real slices and the right kind", "statement": "Every record of normalize_with_mapping has input_text = input[input_start:input_end], output_text = output[output_start:output_end], kind 'equal' iff the texts are equal, 'delete' iff they differ and the output is empty, 'replace' otherwise; include_identity=False drops exactly the 'equal' records and keeps the order.", "quantifier": "every input, tagging and path", "why_tests_cant": "All token sequences.", "anchors": ["tn/processor.py:Processor._normalize_candidate_with_mapping", "tn/processor.py:Processor.normalize_with_mapping"]}
{"id": "C23", "title": "Mapping and plain normalization report the same texts", "statement": "For every input and nbest, normalize_with_mapping's output texts are exactly normalize's outputs in the same order.", "quantifier": "every input, nbest and grammar", "why_tests_cant": "Both sides share a search that ranges over all lattices.", "anchors": ["tn/processor.py:Processor.normalize", "tn/processor.py:Processor.normalize_with_mapping"]}
{"id": "C24", "title": "Lazy path stream enumerates every distinct output once, cheapest first", "statement": "Successive pops of the lazy stream return each distinct output string of the lattice exactly once (an output with finitely many outputs not heavier than it is reached), in non-decreasing weight order, with ranks 0,1,2,...; after the last one it returns None for ever; this holds however shortest-path ties are broken between calls.", "quantifier": "every lattice (finite or infinite), every number of pops, every tie-breaking of the n-shortest-path oracle", "why_tests_cant": "Depends on the doubling schedule and ties; tests use a couple of lattices.", "anchors": ["tn/processor.py:_UniqueOutputPathStream"]}
{"id": "C25", "title": "n-best outputs are pairwise distinct and at most n", "statement": "normalize(input, nbest=n) returns at most n outputs, pairwise different; fewer than n only if there are no other outputs.", "quantifier": "every input, grammar, n", "why_tests_cant": "All lattices and all n.", "anchors": ["tn/processor.py:Processor._normalization_candidates"]}
{"id": "C26", "title": "n-best outputs are the cheapest outputs in cost order", "statement": "The list returned for n is the first n distinct outputs of all (tag, verbalization) pairs sorted by tagger cost plus extra verbalizer cost over that tag's best, ties by tag rank then verbalization rank; no cheaper pair is skipped.", "quantifier": "every pair of weighted relations and every n", "why_tests_cant": "The frontier search is only exercised on small examples.", "anchors": ["tn/processor.py:Processor._normalization_candidates"]}
{"id": "C27", "title": "Asking for more candidates never changes the earlier ones", "statement": "The n-best list is a prefix of the m-best list when n <= m, and normalize(x) equals the first element of normalize(x, nbest=m).", "quantifier": "every input, grammar, n <= m", "why_tests_cant": "All pairs n,m and all lattices.", "anchors": ["tn/processor.py:Processor.normalize", "tn/processor.py:Processor._normalization_candidates"]}
{"id": "C28", "title": "The best output comes from the best tag that can be verbalized", "statement": "The first candidate is the cheapest verbalization of the lowest-ranked tag that has any verbalization.", "quantifier": "every input and grammar", "why_tests_cant": "All lattices.", "anchors": ["tn/processor.py:Processor._normalization_candidates"]}
{"id": "C29", "title": "Invalid nbest is rejected before any work and empty input is preserved", "statement": "tag, normalize and normalize_with_mapping raise ValueError for every nbest that is a bool, not an int, or below 1, and for empty input return an empty result in the shape selected by nbest, without consulting the grammar.", "quantifier": "every nbest value and every grammar", "why_tests_cant": "All integers and grammars.", "anchors": ["tn/processor.py:Processor._validate_nbest", "tn/processor.py:Processor.tag", "tn/processor.py:Processor.normalize", "tn/processor.py:Processor.normalize_with_mapping"]}
{"id": "C30", "title": "A loaded cache bundle is complete, matching and checksummed", "statement": "Whatever bytes and entries are on disk, load returns graphs only if the bundle directory holds exactly the three expected entries, the manifest names this exact configuration, builder and source fingerprint, and both files have the size and checksum recorded in that manifest.", "quantifier": "every directory content", "why_tests_cant": "All corruptions, truncations and mixtures.", "anchors": ["tn/cache.py:CacheBundle._load_path"]}
{"id": "C31", "title": "No interleaving or crash lets a reader see a mixed or partial bundle", "statement": "In every interleaving of any number of builders, overwriting builders and lock-free readers, with crashes at any step, any graphs a process obtains from the cache are the tagger and verbalizer written together by one publication for this key.", "quantifier": "every schedule of any number of processes and every crash point", "why_tests_cant": "Schedules and crash points are unbounded; tests run one or two.", "anchors": ["tn/cache.py:CacheBundle.publish", "tn/cache.py:CacheBundle.load", "tn/cache.py:CacheBundle.recover_residuals", "tn/processor.py:Processor.build_fst"]}
{"id": "C32", "title": "A crash never loses a previously published bundle", "statement": "After a bundle has been published, at every later instant some complete bundle for the key is on disk under the final name or under a recoverable name, and the next locked recovery after a crash makes it loadable again.", "quantifier": "every crash point of every operation sequence", "why_tests_cant": "All crash points.", "anchors": ["tn/cache.py:CacheBundle.publish", "tn/cache.py:CacheBundle.recover_residuals"]}
{"id": "C33", "title": "A failed publication leaves the previous bundle in place", "statement": "If any step of publish fails, the bundle that was loadable before is loadable afterwards under the final name, and no temporary directory of a well-formed attempt remains.", "quantifier": "every failing step", "why_tests_cant": "Each step may fail in each history.", "anchors": ["tn/cache.py:CacheBundle.publish"]}
{"id": "C34", "title": "Only the lock holder changes a key's directories", "statement": "At every instant at most one process is between acquiring and releasing the key lock, and only that process renames, writes or deletes entries of the key.", "quantifier": "every schedule of any number of processes with crashes", "why_tests_cant": "Schedules are unbounded.", "anchors": ["tn/cache.py:CacheBundle.lock", "tn/processor.py:Processor.build_fst"]}
{"id": "C35", "title": "Concurrent first users build at most once", "statement": "If no process crashes, fails or asks for overwriting, then over any schedule of any number of processes using the same key at most one of them builds, and all of them end up with the same graphs.", "quantifier": "every schedule of any number of processes", "why_tests_cant": "Schedules are unbounded.", "anchors": ["tn/processor.py:Processor.build_fst", "tn/cache.py:CacheBundle.lock"]}
{"id": "C36", "title": "Different configurations, sources or builders never share a bundle", "statement": "Two cache keys that differ in prefix, order type, configuration, source fingerprint or builder identity have different bundle directories (given that the digest does not collide on them), and a bundle found at a key's path is rejected unless its manifest carries that key's identity.", "quantifier": "every pair of keys", "why_tests_cant": "All pairs of configurations.", "anchors": ["tn/cache.py:CacheBundle.__init__", "tn/cache.py:CacheBundle._expected_manifest_identity"]}
{"id": "C37", "title": "Cache paths stay inside the cache root", "statement": "For every accepted prefix and every digest the bundle, lock and residual paths are strictly inside the cache root, and every prefix with a separator, empty, '.' or '..' is rejected.", "quantifier": "every prefix string", "why_tests_cant": "All strings.", "anchors": ["tn/cache.py:CacheBundle.__init__", "tn/cache.py:CacheBundle._assert_under_root"]}
{"id": "C38", "title": "Cleanup never deletes foreign data", "statement": "Removing a bundle directory deletes only entries of that directory that are links or the three known regular files; if anything else is present nothing is removed at all; links are unlinked, never followed.", "quantifier": "every directory content", "why_tests_cant": "All directory contents.", "anchors": ["tn/cache.py:_remove_flat_bundle_impl"]}
{"id": "C39", "title": "Recovery and cleanup touch only residuals of the same key", "statement": "recover_residuals and remove_invalid only rename or delete directories whose name is the key's digest or a residual name of that digest; directories of other keys are unchanged.", "quantifier": "every parent directory content and every pair of digests of equal length", "why_tests_cant": "All neighbours.", "anchors": ["tn/cache.py:CacheBundle.recover_residuals", "tn/cache.py:CacheBundle.remove_invalid"]}
{"id": "C40", "title": "Grammar sources changing during a build are never cached", "statement": "If the source fingerprint after building differs from the one the key was computed from, nothing is published and the builder raises.", "quantifier": "every build and every time of change", "why_tests_cant": "Every moment of change.", "anchors": ["tn/processor.py:Processor.build_fst"]}
{"id": "C41", "title": "The source fingerprint's input determines the source files", "statement": "Different sets of production files (paths or contents) are hashed from different byte streams, so that under a collision-free digest they get different fingerprints.", "quantifier": "every pair of source trees", "why_tests_cant": "Only specially related trees reveal an ambiguous encoding.", "anchors": ["tn/cache.py:production_source_fingerprint"]}
{"id": "C42", "title": "cache_dir=False never touches the file system", "statement": "With cache_dir=False construction performs no file-system operation of the cache and always builds in memory.", "quantifier": "every configuration and file-system state", "why_tests_cant": "All states.", "anchors": ["tn/processor.py:Processor.build_fst"]}
{"id": "C43", "title": "Lock timeouts are validated and bounded", "statement": "A missing variable gives 600 s; a non-number, NaN, infinite or negative value is rejected; a waiting process that never gets the lock raises after the deadline and never enters the critical section.", "quantifier": "every environment value and every sequence of lock outcomes and clock readings", "why_tests_cant": "All values and timings.", "anchors": ["tn/cache.py:_configured_lock_timeout", "tn/cache.py:CacheBundle.lock"]}
{"id": "C44", "title": "Reading a cache file returns exactly the file or fails", "statement": "The bounded reader returns exactly the file's bytes when the file is regular, of the expected size and within the limit and does not change; any short read, growth or size mismatch is an error, never a truncated or padded result.", "quantifier": "every file content and every pattern of partial reads", "why_tests_cant": "All chunkings.", "anchors": ["tn/cache.py:_read_open_regular", "tn/cache.py:_write_all"]}
{"id": "C45", "title": "Exactly one line terminator is removed from each input line", "statement": "The text passed to the processor is the line without its final \\n, \\r\\n or \\r and nothing else; lines without terminator are unchanged; inner characters are never changed.", "quantifier": "every line", "why_tests_cant": "All strings.", "anchors": ["tn/cli.py:_without_line_ending"]}
{"id": "C46", "title": "The CLI prints tag and normalized text for every line in order", "statement": "run prints for every input line, in order, the tagged text and then the verbalization of exactly that tagged text: 2 lines per input line; --text wins when given even if it is empty; --file is used otherwise, else stdin.", "quantifier": "every list of lines, every processor, every option combination", "why_tests_cant": "All inputs and processors.", "anchors": ["tn/cli.py:run", "tn/cli.py:_process_line"]}
{"id": "C47", "title": "CLI switches reach the processor and unsupported ones are rejected", "statement": "For each direction and language the option set accepted is exactly the language's capability set, the last occurrence of a switch wins, defaults are the processor's documented defaults, and create_processor forwards every value to the parameter of the same name.", "quantifier": "every argument vector of flags", "why_tests_cant": "All orders and repetitions of switches.", "anchors": ["tn/cli.py:create_parser", "tn/cli.py:create_processor", "tn/cli.py:_add_boolean", "tn/cli.py:_parse_bool"]}
{"id": "C48", "title": "A tagged field carries the written text and nothing else", "statement": "For any field grammar, the tagged output of tag_field for an input string is the field's name with exactly the escaped input as value, and only inputs of the field grammar are tagged.", "quantifier": "every field grammar (weighted relation) and every input", "why_tests_cant": "All grammars and strings.", "anchors": ["tn/processor.py:Processor.tag_field", "tn/processor.py:Processor.input_projection"]}
{"id": "C49", "title": "Verbalizing a tagged field applies the field grammar to the written text", "statement": "Verbalizing the tagged form of a field yields exactly the outputs of the field grammar on the written text with the same relative costs; with no field grammar it yields the written text.", "quantifier": "every field grammar and every input", "why_tests_cant": "All grammars and strings.", "anchors": ["tn/processor.py:Processor.verbalize_field", "tn/processor.py:Processor.tag_field"]}
{"id": "C50", "title": "Joint cost equals the cost of the original one-pass grammar", "statement": "For a single field token the tagger cost plus the verbalizer cost minus the best verbalizer cost equals the cost the field grammar gives to that input/output pair.", "quantifier": "every weighted field grammar, every input/output pair", "why_tests_cant": "All weights.", "anchors": ["tn/processor.py:Processor.input_projection", "tn/processor.py:_NormalizationCandidate.weight"]}
{"id": "C51", "title": "Every text has a tagging and a verbalization (Chinese/Japanese)", "statement": "For every non-empty text of valid characters without NUL, the Chinese and Japanese taggers (both directions) have at least one path, its output parses as tokens, and the char-by-char tagging is accepted by the verbalizer, so normalization never fails for lack of a path.", "quantifier": "every text", "why_tests_cant": "All texts.", "anchors": ["tn/chinese/normalizer.py", "tn/chinese/rules/char.py", "itn/chinese/inverse_normalizer.py", "itn/chinese/rules/char.py"]}
{"id": "C52", "title": "The tagged text is always a well-formed token stream that quotes the input", "statement": "Every output of the Chinese and Japanese taggers (both directions) and of the English inverse tagger parses, and its field values, concatenated in order with separators removed, are pieces of the text in order; for the Chinese and Japanese inverse taggers they are the text itself, for the English one they are the text with white space left out between them.", "quantifier": "every text and every tagger path", "why_tests_cant": "All texts and paths.", "anchors": ["tn/chinese/normalizer.py", "itn/chinese/inverse_normalizer.py", "tn/japanese/normalizer.py", "itn/japanese/inverse_normalizer.py", "itn/english/inverse_normalizer.py", "tn/processor.py:Processor.add_tokens"]}
{"id": "C53", "title": "Chinese integer reading has the right value", "statement": "For every digit string that the Chinese TN number grammar reads as a cardinal, the spoken Chinese numeral denotes exactly the integer written, for all lengths the grammar supports (1 to 12 digits, without leading zero, plus single digits), and every such number is readable.", "quantifier": "all integers 0 .. 999999999999", "why_tests_cant": "10^12 numbers.", "anchors": ["tn/chinese/rules/cardinal.py:Cardinal.build_tagger"]}
{"id": "C54", "title": "Chinese integer reading is unique", "statement": "Each such integer has exactly one reading under the number grammar.", "quantifier": "all integers 0 .. 999999999999", "why_tests_cant": "10^12 numbers.", "anchors": ["tn/chinese/rules/cardinal.py:Cardinal.build_tagger"]}
{"id": "C55", "title": "Digit-by-digit readings are faithful", "statement": "Phone numbers, IDs, IP addresses, years and decimals are read digit by digit: the reading has one syllable per digit, in order, and the digits can be recovered from it.", "quantifier": "digit strings of every length", "why_tests_cant": "Infinite domain.", "anchors": ["tn/chinese/rules/cardinal.py", "tn/chinese/rules/date.py"]}
{"id": "C56", "title": "Chinese ITN inverts the Chinese reading", "statement": "Whatever the ITN number grammar writes for a spoken numeral denotes the value of the numeral (except 万 with an omitted unit when enable_million is off, where two numerals share one writing); for the TN reading of a number below 10^12 every output therefore denotes that number, an output exists exactly unless the number is a positive multiple of 10^8, and for numbers below 10^6 (10^8 with enable_million) the original digit string is an output.", "quantifier": "all spoken numerals the grammar accepts; all numbers below 10^12; both settings of enable_million", "why_tests_cant": "10^12 numbers and the colloquial short forms.", "anchors": ["itn/chinese/rules/cardinal.py", "tn/chinese/rules/cardinal.py"]}
{"id": "C57", "title": "Dates and times accept exactly calendar ranges", "statement": "The month grammar accepts exactly 1-12 (with optional leading zero), the day grammar 1-31, hours 0-24 and minutes/seconds 0-59 forms of the data tables, and read each as its numeric value.", "quantifier": "all strings", "why_tests_cant": "Acceptance of exactly the range quantifies over all strings.", "anchors": ["tn/chinese/rules/date.py", "tn/chinese/rules/time.py"]}
{"id": "C58", "title": "English ITN integer value is right", "statement": "Whatever the English ITN cardinal grammar writes for a phrase are the digits, without leading zeros, of the number its words name (units, teens, tens, hundreds and the scale words in descending order, 'and' not heard, hundreds up to 9900). The name of every number below 10^24, with or without 'and', is accepted and its digits are the only output. The cardinal rule writes its own taggings as sign and digits and never takes a bare zero .. twelve.", "quantifier": "all phrases of the grammar; all numbers below 10^24", "why_tests_cant": "The grammar accepts an astronomically large set.", "anchors": ["itn/english/rules/cardinal.py", "itn/english/data/numbers/digit.tsv"]}
{"id": "C59", "title": "Postprocessing options act exactly on their character sets", "statement": "With all postprocessing options off the Chinese TN verbalizer leaves plain text unchanged; remove_puncts deletes exactly the listed punctuation, full_to_half and traditional_to_simple map exactly the listed characters, tag_oov wraps exactly the characters outside the character set.", "quantifier": "every text and every option combination", "why_tests_cant": "All texts.", "anchors": ["tn/chinese/rules/postprocessor.py", "tn/chinese/normalizer.py"]}
{"id": "C60", "title": "Rule inventory: a pipeline uses all its rules", "statement": "tagger_union and verbalizer_union contain every rule with a weight, resp. every rule not marked verbalize=False, and raise ValueError exactly when that set is empty; the union's cost is the rule's cost plus its weight.", "quantifier": "every rule inventory", "why_tests_cant": "All inventories.", "anchors": ["tn/processor.py:Processor.tagger_union", "tn/processor.py:Processor.verbalizer_union"]}
{"id": "C61", "title": "Every traced input byte is attributed by one rule", "statement": "A token's traced input range begins with the first arc that writes into (or stands inside) the token's tagged range and is not deleted white space, and ends with the last such arc; white space deleted in front of a token is never part of it.", "quantifier": "every linear path, every text and every ordered token span list", "why_tests_cant": "Every interleaving of arcs.", "anchors": ["tn/alignment.py:trace_input_spans"]}
{"id": "C62", "title": "Reading a shortest path terminates and accepts exactly lines", "statement": "_linear_arcs terminates on every automaton and finishes without an error exactly when the automaton is one line of arcs through different states from its start state to a state without arcs.", "quantifier": "every automaton", "why_tests_cant": "All automata, also cyclic ones.", "anchors": ["tn/alignment.py:_linear_arcs"]}
{"id": "C63", "title": "Alignment only fails where a code point would be split", "statement": "For ordered non-empty spans and a linear path that consumes the whole input and writes the whole output, transduce_with_spans succeeds or reports a split code point; trace_input_spans succeeds, reports a split code point or a token without input. No index error is possible.", "quantifier": "every such path, text and span list", "why_tests_cant": "Every interleaving of arcs.", "anchors": ["tn/alignment.py:transduce_with_spans", "tn/alignment.py:trace_input_spans"]}
{"id": "C64", "title": "The n-best search ends", "statement": "The search for n results terminates when the grammar has finitely many taggings and verbalizations for the input, and also, for infinite grammars, when for some cost bound only finitely many taggings and verbalizations are within it and n different outputs are within it; the result does not depend on the number of iterations allowed.", "quantifier": "every input, grammar and n", "why_tests_cant": "Termination of a loop without bound over all lattices.", "anchors": ["tn/processor.py:Processor._normalization_candidates"]}
{"id": "C65", "title": "The search fails only for a good reason", "statement": "For n >= 1 the search raises only the token parser's error for a tagging of the input that cannot be parsed, or RuntimeError, the latter exactly when it ends and no tagging has a verbalization.", "quantifier": "every input, grammar and n", "why_tests_cant": "All lattices.", "anchors": ["tn/processor.py:Processor._normalization_candidates"]}
{"id": "C66", "title": "Processors with different switches never share a cache bundle", "statement": "The cache key made by a processor's constructor contains its class and the value of every one of its switches: two constructor calls with equal keys are of the same class and agree on every switch.", "quantifier": "every pair of classes and switch values, every source fingerprint and builder", "why_tests_cant": "All combinations of classes and switches.", "anchors": ["tn/chinese/normalizer.py:Normalizer.__init__", "itn/chinese/inverse_normalizer.py:InverseNormalizer.__init__", "tn/japanese/normalizer.py:Normalizer.__init__", "itn/japanese/inverse_normalizer.py:InverseNormalizer.__init__", "tn/cache.py:CacheBundle.__init__"]}
{"id": "C67", "title": "Signed decimals are read as the number written", "statement": "For every text the Chinese TN number grammar reads (optional sign, integer part, optional fractional part), the reading says exactly the sign, integer and fractional digits that are written; texts with the same reading write the same number; the readable texts are exactly those of the documented form.", "quantifier": "every text", "why_tests_cant": "Signs, integer parts and fractional parts of every length combine.", "anchors": ["tn/chinese/rules/cardinal.py:Cardinal.build_tagger", "tn/chinese/data/number/sign.tsv", "tn/chinese/data/number/dot.tsv"]}
{"id": "C68", "title": "Japanese postprocessing options act exactly on their character sets", "statement": "The Japanese TN postprocessor maps every text to exactly one text, character by character: full_to_half replaces exactly the listed characters, remove_puncts deletes exactly the listed and the ASCII punctuation, tag_oov wraps exactly the characters outside the character set, remove_interjections changes nothing; with all options off texts are unchanged.", "quantifier": "every text and every option combination", "why_tests_cant": "All texts.", "anchors": ["tn/japanese/rules/postprocessor.py", "tn/japanese/normalizer.py"]}
{"id": "C69", "title": "Full-width input is read like half-width input", "statement": "With full_to_half every field grammar of Japanese TN (numbers, dates, times, measures, money, scores, white list, transliteration) has the same readings with the same costs for a text and for the text with full-width characters replaced by half-width ones.", "quantifier": "every text, every field grammar", "why_tests_cant": "All texts.", "anchors": ["tn/japanese/rules/preprocessor.py", "tn/processor.py", "tn/japanese/rules/cardinal.py", "tn/japanese/rules/date.py"]}
{"id": "C70", "title": "English ITN ordinals get the right number and ending", "statement": "The ordinal name of every number below 10^24 (first, twelfth, twentieth, hundredth, ... as its last word) is read as that number and no other, and the ordinal rule writes exactly its digits and st, nd, rd or th as English spells it: th for everything ending in 11, 12, 13.", "quantifier": "all numbers below 10^24; the ending for all numbers", "why_tests_cant": "10^24 names; overlapping suffix rules of a context-dependent rewrite.", "anchors": ["itn/english/rules/ordinal.py", "itn/english/data/ordinals/digit.tsv"]}
{"id": "C71", "title": "English ITN normalizes exactly the readable texts", "statement": "English inverse normalization returns a result exactly for the empty text and the texts made of pieces separated by white space, each a word without quotation marks and backslashes or a single character with punctuation marks around it, with spaces before and after; every other text (for example one with a quotation mark beside a letter) raises a runtime error.", "quantifier": "every text, every nbest, every way of breaking ties", "why_tests_cant": "All texts; the language of a union of a dozen rules with rewrites and compositions.", "anchors": ["itn/english/inverse_normalizer.py", "itn/english/rules/word.py", "itn/english/rules/char.py", "itn/english/rules/punctuation.py"]}
{"id": "C72", "title": "English TN taggings are token streams that quote the text", "statement": "Every output of the English tagger parses, and its field values in order are pieces of the text with only white space and the marks - / . : @ left out between them.", "quantifier": "every text and every tagger path", "why_tests_cant": "All texts and paths of fourteen rules.", "anchors": ["tn/english/normalizer.py", "tn/english/rules/punctuation.py", "tn/english/rules/date.py", "tn/english/rules/measure.py"]}
{"id": "C73", "title": "English TN normalizes words, numbers, symbols and marks", "statement": "A text made of words, digit strings and single symbols, each parted from the next by one white space character or by punctuation marks with spaces around them, with marks and white space before and after, is normalized for every number of candidates, unless a quotation mark or backslash stands inside angle brackets.", "quantifier": "every such text, every nbest, every way of breaking ties", "why_tests_cant": "All texts of unbounded length.", "anchors": ["tn/english/normalizer.py", "tn/english/rules/word.py", "tn/english/rules/punctuation.py", "tn/english/rules/cardinal.py", "tn/english/rules/whitelist.py"]}
{"id": "C74", "title": "English TN names integers correctly", "statement": "The integer grammar of English TN accepts exactly the numbers below 10^15, written without leading zeros and with or without commas between groups of three digits, and says exactly the English name of the number; English ITN turns that name back into the digits and into nothing else.", "quantifier": "all texts; all numbers below 10^15", "why_tests_cant": "10^15 numbers, and all texts that are no numbers.", "anchors": ["tn/english/rules/cardinal.py", "tn/english/data/number/cardinal_number_name.far", "itn/english/rules/cardinal.py"]}
{"id": "C75", "title": "English TN says only readings of the integer", "statement": "Whatever the cardinal rule says for a text is the sign and a reading of the number: its name with at most one and in it (which does not change its value), a name of three digits without hundred, its digits one by one, its leading zeros and then its name, or one of these with a first one turned into a; and every number below 10^15 can be said by its name. The preferred reading is not always English: 100 billion is said one hundred and billion, and a first one thousand always loses its one.", "quantifier": "all texts, all tagger and verbalizer paths", "why_tests_cant": "All texts; five overlapping grammars under composition.", "anchors": ["tn/english/rules/cardinal.py"]}
{"id": "C76", "title": "English TN reads ordinals correctly", "statement": "The ordinal rule of English TN accepts exactly the ordinal numbers below 10^15 - a numeral followed by the ending that English gives the number, in small letters, capitals or superscript - and says exactly its ordinal name; English ITN turns that back into the digits and the ending.", "quantifier": "all texts; all numbers below 10^15", "why_tests_cant": "10^15 numbers, and all texts that are no ordinal numbers; 11th, 12th, 13th and their like against 1st, 2nd, 3rd.", "anchors": ["tn/english/rules/ordinal.py", "itn/english/rules/ordinal.py"]}
{"id": "C77", "title": "Text with nothing to normalize comes back unchanged", "statement": "In the Chinese and Japanese normalizers, a text without digits (inverse normalizers: without numerals) and without the few other words the rules read has exactly one tagging, character by character, and exactly one result for every nbest: each of its characters put through the enabled character conversions by itself - so, for characters that no conversion concerns, the text itself.", "quantifier": "all texts, all switch settings, all nbest values, all ways of breaking ties", "why_tests_cant": "That no rule fires on such texts quantifies over all texts and over all rules and tables; a test only tries some sentences.", "anchors": ["tn/chinese/normalizer.py", "tn/japanese/normalizer.py", "itn/chinese/inverse_normalizer.py", "itn/japanese/inverse_normalizer.py"]}
{"id": "C78", "title": "The C++ runtime returns what Python returns", "statement": "When the C++ runtime has loaded the machines of the Python pipeline, Normalize returns for every text without NUL the bytes of the string that Python's normalize returns: for Chinese and Japanese normalization and inverse normalization. In general, it does so whenever the first tagging can be verbalized and is one that the two token parsers read alike; where Python raises because there is no tagging, C++ returns the empty string.", "quantifier": "all texts, all switch settings, all ways of breaking ties", "why_tests_cant": "Equality of two programs on all texts; a test compares them on a corpus, and the case that breaks it (a fraction in Japanese) is one of many token types.", "anchors": ["runtime/processor/wetext_processor.cc", "runtime/processor/wetext_token_parser.cc", "tn/processor.py", "tn/token_parser.py"]}
{"id": "C79", "title": "Every tagging can be verbalized", "statement": "In the Chinese and Japanese pipelines, whatever the tagger writes for a text can be parsed and reordered, and the verbalizer accepts the reordered text: no choice of the tagger, cheapest or not, leads to the runtime error for a missing verbalization.", "quantifier": "all texts, all taggings of them, all switch settings", "why_tests_cant": "Quantifies over all taggings, also those a shortest path search never picks, of all texts; every rule of the tagger is matched with the verbalizer of its type through the field order of the schema.", "anchors": ["tn/chinese/normalizer.py", "tn/japanese/normalizer.py", "itn/chinese/inverse_normalizer.py", "itn/japanese/inverse_normalizer.py", "tn/token_parser.py", "tn/processor.py"]}
{"id": "C80", "title": "Japanese TN says numbers by their names", "statement": "The integer grammar of the Japanese normalizer reads exactly the digit sequences of at most twelve digits that are 0 or have no leading zero, with commas allowed before the last three, six or ten digits, that have at most eight digits or zeros in the places of man (10^4 to 10^7); it says exactly the Japanese name of the number, whose meaning is the number; every number below 10^8 is read in plain digits and in groups of three, and no other plain number with other than zeros in the places of man. A signed decimal is said as sign, name and digits after the point, in one way only; a year is a number of four digits.", "quantifier": "all texts; all numbers below 10^12", "why_tests_cant": "10^12 numbers, and all texts that are no numbers; the numbers from 10^8 on that are not read (123456789) are a gap no listed test shows.", "anchors": ["tn/japanese/rules/cardinal.py", "tn/japanese/rules/date.py", "tn/japanese/data/number/digit.tsv"]}
{"id": "C81", "title": "A text is normalized clause by clause", "statement": "In the Chinese and Japanese normalizers and the Chinese inverse normalizer, the best results of a text with one of the listed punctuation marks in it (for Japanese not the full stop, which can be a decimal point; for Chinese not the comma, the colon and the like) are exactly a best result of the text before it, the mark as the enabled character conversions make it, and a best result of the text after it; so the first result that normalize returns is put together in this way.", "quantifier": "all texts, all positions of a mark, all switch settings, all ways of breaking ties", "why_tests_cant": "That no rule and no cheaper path spans a mark quantifies over all texts and all taggings of them.", "anchors": ["tn/chinese/normalizer.py", "tn/japanese/normalizer.py", "itn/chinese/inverse_normalizer.py", "tn/processor.py"]}
{"id": "C82", "title": "Japanese TN says the numbers in a text", "statement": "Without transliteration, a text in which unsigned integers and decimals (in plain digits or with commas, half or full width) stand between stretches of characters that no rule reads has exactly one best result: every number is replaced by its Japanese name and every other character goes through the enabled character conversions by itself. A number stands by itself when the stretch before it does not end with a sign, a currency, a team or another listed word, the next character is not one of the listed ones that can belong to a number (operators, first characters of units and the like), it is not a year and month (2024.05) and, in plain digits, has at most eight digits. With tag_oov on, the zero that the normalizer says is itself marked as out of vocabulary.", "quantifier": "all texts of this form, any number of numbers of any size, all switch settings, all ways of breaking ties", "why_tests_cant": "Quantifies over all texts and all numbers, and over all ways of tagging them: that no combination of rules beats the intended one cannot be tested.", "anchors": ["tn/japanese/normalizer.py", "tn/japanese/rules/cardinal.py", "tn/japanese/rules/date.py", "tn/japanese/rules/measure.py", "tn/processor.py"]}
{"id": "C83", "title": "Chinese TN says numbers by their names", "statement": "The number grammar of the Chinese normalizer reads exactly the optionally signed decimals whose integer part has one to twelve digits and is 0 or has no leading zero (digits of half or full width), and says exactly the sign, the Chinese name of the integer (liang for a leading two before hundred, thousand, wan or yi, ling for skipped places, shi without yi for the numbers from ten to nineteen) and the digits after the point; for every number below 10^12 the usual digits are read in exactly this way, the name means the number, and different numbers have different names.", "quantifier": "all texts; all numbers below 10^12", "why_tests_cant": "10^12 numbers and all texts that are no numbers; where ling is said once, twice or not at all depends on the pattern of zeros in all twelve places.", "anchors": ["tn/chinese/rules/cardinal.py", "tn/chinese/data/number/digit.tsv"]}
{"id": "C84", "title": "Chinese TN says the numbers, dates and times in a text", "statement": "Whatever the switches, a text in which unsigned integers and decimals, percentages, telephone numbers, dates, times and fractions stand between stretches of characters that no rule reads has exactly one best result: a number is said by its Chinese name, a percentage with the words for per hundred before it, a telephone number digit by digit with yao for one, a date as year, month and day whichever order they are written in, a time as hours, minutes and seconds, a fraction with its denominator first, and every other character goes through the enabled character conversions by itself. Something stands by itself when the stretch before it does not end with a sign, a currency, a team or another listed word and the next character is not one of the listed ones that can belong to a number; a number must not be a row of telephone numbers and dates, a fraction must not be a date. A decimal made of a two-digit month and a day (10.1) is said as a date, never as a number.", "quantifier": "all texts of this form, any number of numbers, dates and times, all switch settings, all ways of breaking ties", "why_tests_cant": "Quantifies over all texts and over all ways of tagging them with eleven weighted rules: that no combination of rules beats the intended one cannot be tested.", "anchors": ["tn/chinese/normalizer.py", "tn/chinese/rules/cardinal.py", "tn/chinese/rules/date.py", "tn/chinese/rules/time.py", "tn/chinese/rules/fraction.py", "tn/chinese/rules/math.py", "tn/processor.py"]}
{"id": "C85", "title": "Japanese ITN writes the names of numbers in digits", "statement": "The Japanese inverse grammar of integers reads the name of every number below 10^12, with or without one of the three signs, and writes exactly one thing: the sign and the number in digits, from a million on (with enable_million from a hundred million on) with the units 億 and 万; what is written means the number. The grammar of decimals does the same for a number below 10^8 followed by the word for the point and the names of digits. So what the Japanese text normalizer says for digits is written back as the number they write, and the digits of a number below a million (with enable_million below a hundred million) come back as they were. Texts that are no names of numbers can be read too and be written as another number than they say.", "quantifier": "all numbers below 10^12, all signs, all decimals, both settings of enable_million", "why_tests_cant": "There are 10^12 names and each could have several readings; the tests of the project have a few dozen.", "anchors": ["itn/japanese/rules/cardinal.py", "tn/japanese/rules/cardinal.py"]}
{"id": "C86", "title": "The C interface is memory-safe for clients that keep to its rules", "statement": "A client of the C interface that only uses pointers it was given and has not given back, passes NUL-terminated texts, names a known pipeline whose files can be read, and verbalizes token streams never causes undefined behaviour, an abort or an escaping exception, whatever the number and order of its calls and whatever addresses the allocator picks. Every call returns what the C++ method returns, every returned string keeps its text until it is freed, and the memory in use is exactly what the client has not given back. Normalization results arrive whole, because no NUL is in them. The promise of the header that null is returned on failure is false: a missing tagger file gives a handle whose first use is undefined, an unknown name ends the process, and a text that is no token stream makes an exception leave the C function.", "quantifier": "all clients, all sequences of calls, all allocators, all machines", "why_tests_cant": "Quantifies over all interleavings of calls and all heap layouts; a test runs one allocator and a few calls.", "anchors": ["runtime/processor/wetext_processor_c_api.cc", "runtime/processor/wetext_processor_c_api.h", "runtime/processor/wetext_processor.cc"]}
{"id": "C87", "title": "The C++ program prints tag and normalized text for every line in order", "statement": "The C++ command line program takes from its file exactly the lines (ended by a line feed or the end of the file) and prints for a non-empty --text and then for every line the tagged text and the verbalization of exactly that; when something fails, the texts before are printed completely, of the failing one at most the tagged text, and nothing after it. For files without carriage returns it takes the same lines as the Python program; with them it does not.", "quantifier": "all files, all flags, all machines, all points of failure", "why_tests_cant": "All file contents and all failures, and agreement of two programs that are never run together.", "anchors": ["runtime/bin/processor_main.cc", "tn/cli.py"]}
{"id": "C88", "title": "Japanese ITN writes a text with names of numbers as the spec says", "statement": "In a text of Japanese names of numbers (of integers below 10^12, decimals, rows of digits, digits with points) and parts without numerals between them, where no part ends with a word that is read together with a number after it and no part begins with a character that is read together with a number before it, the result is exactly one: each name is written in digits as the switches say (a single digit stays as it is unless enable_0_to_9 and enable_standalone_number are on), and the characters between are unchanged or, with full_to_half, made half-width. This holds for every setting of the switches, for every run, however ties are broken.", "quantifier": "all texts of that form, all switches, all runs and tie breaks", "why_tests_cant": "All texts of unbounded length with any number of names in them; a cheaper reading across the edge of a name somewhere would show only on the right text.", "anchors": ["itn/japanese/inverse_normalizer.py", "itn/japanese/rules/cardinal.py", "tn/processor.py"]}
{"id": "C89", "title": "Japanese TN followed by ITN brings a text with numbers back", "statement": "A half-width Japanese text with numbers in digits (integers and decimals below a million, with enable_million below a hundred million, without commas and needless zeros, not written like a date) and parts between that neither normalizer reads is said in exactly one way by the text normalizer, and the inverse normalizer writes what is said in exactly one way: as the original text. So the first result of every run of the one, given to any run of the other, brings the text back.", "quantifier": "all texts of that form, all switches of the inverse normalizer, all switches of the text normalizer that keep the characters, all runs and tie breaks", "why_tests_cant": "Two grammars with different tables compose to the identity on infinitely many texts; the tests check the two directions separately.", "anchors": ["tn/japanese/normalizer.py", "itn/japanese/inverse_normalizer.py", "tn/processor.py"]}
{"id": "C90", "title": "Chinese ITN writes a text with names of integers as the spec says", "statement": "In a text of Chinese names of integers (below a million, with enable_million below a hundred million) and parts without numerals between them, where no part ends with words that are read together with a number after them (a sign, percent, an hour of the day, a train, the beginning of a whitelisted word, one of a unit, a licence plate) and none begins with a character that is read together with a number before it, the result is exactly one: each name is written in digits, or left as it is if enable_standalone_number is off or it is below ten and enable_0_to_9 is off, and the text between is unchanged but for interjections when they are to be removed. This holds for every setting of the switches, for every run, however ties are broken.", "quantifier": "all texts of that form, all switches, all runs and tie breaks", "why_tests_cant": "All texts of unbounded length with any number of names in them; there are hundreds of units, currencies and words that could be read across the edge of a name, and many ways to read a name in pieces.", "anchors": ["itn/chinese/inverse_normalizer.py", "itn/chinese/rules/cardinal.py", "itn/chinese/rules/measure.py", "tn/processor.py"]}
{"id": "C91", "title": "Chinese TN followed by ITN brings a text with integers back", "statement": "A Chinese text with integers in digits (from ten on, or from zero with enable_0_to_9, below a million or with enable_million below a hundred million, without needless zeros, no service numbers) and parts between that neither normalizer reads and no switch changes is said in exactly one way by the text normalizer, and the inverse normalizer writes what is said in exactly one way: as the original text. So the first result of every run of the one, given to any run of the other, brings the text back.", "quantifier": "all texts of that form, all switches of the inverse normalizer, all switches of the text normalizer but those for punctuation and unknown characters, all runs and tie breaks", "why_tests_cant": "Two grammars with different tables compose to the identity on infinitely many texts; the tests check the two directions separately.", "anchors": ["tn/chinese/normalizer.py", "itn/chinese/inverse_normalizer.py", "tn/processor.py"]}
{"id": "C92", "title": "English ITN writes a text with names of numbers as the spec says", "statement": "In a text of ordinary words and English names of numbers (below 10^24, with or without \"and\" after hundred), where no two names or the word and stand beside each other, no words in a row are a phrase of the whitelist, and no word is a single letter, a key word such as point or minus, an ordinal, a decade, a month, what follows an hour, a power of 1000 from 10^24 on, or the last word of a unit or currency, the result is exactly one: numbers up to twelve stay words, a number of millions, billions and so on said without \"and\" is written as digits with the word for it, every other number is written in digits, and the words between are left as they are. Every run of the inverse normalizer on such a text returns, with that first.", "quantifier": "all texts of that form, all runs and tie breaks", "why_tests_cant": "All texts of unbounded length with any number of names in them; every way to cut the words into groups and to read a group by any of the rules competes for the least weight.", "anchors": ["itn/english/inverse_normalizer.py", "itn/english/rules/cardinal.py", "itn/english/rules/date.py", "itn/english/rules/word.py", "tn/processor.py"]}
{"id": "C93", "title": "The Android binding returns what the C++ runtime writes", "statement": "init always returns, and later calls use the files of the last init; the field orders are those of the language unless the directory has zh_tn_ in its name, and exactly then those of the inverse normalizer are wrong. In every sequence of calls after an init, texts of characters in the basic plane without NUL reach the processors in UTF-8 and what they write for them is returned whole. Texts with NUL or other characters do not reach them as UTF-8, but come back if they are copied; a result with characters outside the basic plane in UTF-8 is undefined behaviour, and so is every call before init. With the Chinese machines in the files the calls return what Python returns for every non-empty text in the basic plane without NUL. Every call leaks one array.", "quantifier": "all sequences of calls, all strings of UTF-16 code units, all machines", "why_tests_cant": "All sequences of calls and all strings; the tests do not run the binding, and its failures are undefined behaviour that may go unnoticed.", "anchors": ["runtime/bindings/android/wetextprocessing.cc", "runtime/processor/wetext_processor.cc"]}
{"id": "C94", "title": "Normalizers add only printed characters of the basic plane", "statement": "In every result of every run of the six normalizers and inverse normalizers (Chinese, Japanese, English), each character either stands in the text or is in the basic plane and no control character; for English normalization this supposes that the rewriting of decades, which is not modelled, writes only such characters. So a text without NUL, control characters or characters outside the basic plane has no result with them, whatever the switches, for the first result and all others.", "quantifier": "all texts, all switches, all runs, all results", "why_tests_cant": "All texts and all results of any number; one wrong character in one of many tables, or one written by reordering the fields, would appear only for the texts that use it.", "anchors": ["tn/chinese/normalizer.py", "tn/japanese/normalizer.py", "itn/chinese/inverse_normalizer.py", "itn/japanese/inverse_normalizer.py", "itn/english/inverse_normalizer.py", "tn/english/normalizer.py", "tn/token_parser.py", "tn/processor.py"]}
{"id": "C95", "title": "The English rule for Roman numerals says the number that is written", "statement": "The rule reads exactly: a name followed by a numeral up to XIX, a key word (chapter, class, part, article, section, paragraph in three spellings) followed by a numeral up to MM, a numeral up to MM by itself other than I, and a numeral up to XIX with th; with deterministic, a numeral by itself has at least two letters and is below L, and I is no ordinal. After a name and with th it says the ordinal number (after a name with or without the), otherwise the name of the number with a comma between thousands and hundreds, and nothing else. Calling normalize on the rule gives a result exactly for these texts, every result is one of these readings, and a list shorter than asked for has all of them. The numeral of a number in the usual subtractive notation has the value of the number.", "quantifier": "all texts, both settings of deterministic, all lists of names", "why_tests_cant": "All texts and all two thousand numerals with every name and key word; the tests have a few.", "anchors": ["tn/english/rules/roman.py", "tn/english/rules/ordinal.py", "tn/english/data/roman/roman_to_spoken.tsv", "tn/processor.py"]}
{"id": "C96", "title": "Files of labels are read as the tables written in them", "statement": "load_labels returns, for a file whose lines are labels separated by tabs, exactly these labels line by line, with any of the three kinds of line ends and with or without one after the last line; an empty line gives a row without labels; a label between quotation marks may have tabs, line feeds and doubled quotation marks, and a quotation mark after the first character of another label stands for itself. Every text without quotation marks is such a file, no text is written for two tables, and no file whatever makes reading raise csv.Error.", "quantifier": "all texts of files, all tables", "why_tests_cant": "Tests read the files that are there; the statement is about every file.", "anchors": ["tn/utils.py:load_labels"]}
{"id": "C97", "title": "Resource paths of inverse text normalization stay in the package", "statement": "itn's get_abs_path returns only paths below the package, whatever the argument and whatever symbolic links there are. A path of names gives the file of that path in the package. Without symbolic links, a path that never goes above the package is accepted, one that goes up and then down is accepted exactly if it comes back by the names it went up, and an absolute path is accepted exactly if it is in the package; otherwise ValueError is raised.", "quantifier": "all arguments, all places of the package, all ways of resolving symbolic links", "why_tests_cant": "All strings and all layouts of links.", "anchors": ["itn/utils.py:get_abs_path"]}
