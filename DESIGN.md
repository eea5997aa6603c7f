# Design

Formal model of WeTextProcessing (pinned commit in `/repo`) in Lean 4.33.0 with Mathlib.
Everything is under `lean/Verif/`. `properties.jsonl` is the list of claims, `MANIFEST.json`
maps each claim to theorem names, `seeded/LOG.jsonl` records the wrong-program experiments.

## Layout

| Directory | Contents |
|---|---|
| `Verif/<Area>/Model.lean` | transcription of the code, branch by branch, exceptions as values |
| `Verif/<Area>/Spec.lean` | specification written without the model's helpers |
| `Verif/<Area>/Lemmas*.lean` | helper lemmas |
| `Verif/<Area>/Props.lean` | the theorems named in `MANIFEST.json`, each followed by `example`s that meet its hypotheses |

Areas: `Token` (tn/token_parser.py), `Cpp` (C++ runtime), `Align` (tn/alignment.py and the mapping
part of tn/processor.py), `NBest` (search part of tn/processor.py), `Cache` (tn/cache.py and
`Processor.build_fst`), `Cli` (tn/cli.py), `Wfst` (meaning of the pynini operators used, and the
framework methods of `Processor`), `Zh`, `En`, `Ja` (grammar rules).

## Trusted base

* Lean's kernel. Axioms allowed in a theorem: `propext`, `Classical.choice`, `Quot.sound`
  (the last section lists them for every claimed theorem). No other axiom, no `sorry`,
  no `native_decide`, no `bv_decide`.
* The transcription of the code into the models: by reading. Each definition cites file and lines
  and says where it simplifies.
* Behaviour of what the code calls, stated as definitions or explicit hypotheses:
  - pynini/OpenFst operators are modelled by their weighted relations over the tropical semiring
    (`Wfst`), not by automata. `optimize`, `rmepsilon` and `copy` are the identity on relations.
  - `shortestpath(lattice, n, unique=True)` is an oracle (`NBest`): n lightest distinct outputs in
    non-decreasing weight order, ties broken arbitrarily and possibly differently in each call.
    For alignment it is an arbitrary linear path that reads the input and writes the output.
  - Weights are elements of an ordered abelian group, so float rounding is not modelled.
  - Python `str` is `List Char`: lone surrogates are not modelled (they cannot be encoded to UTF-8,
    so they never reach a WFST).
  - SHA-256 is an arbitrary function `H`. Statements about distinct keys assume that `H` does not
    collide on the strings concerned; no statement assumes global injectivity.
  - The POSIX file system is a map from names to nodes; `rename`, `mkdir`, `unlink`, `rmdir`,
    `open` are atomic; an open descriptor keeps its node; `flock` is exclusive and is released when
    the holder dies. Crash means process death at any point between two operations.
* Not modelled: argparse's messages, logging, Windows branches of the cache
  (except the pure lock/cleanup decisions), the Kotlin app, protobuf/glog, floating-point
  rounding, data tables whose content no property depends on.

## Plan for each property

C01-C10 `Token`. Model: parser state `(text, index, char)` with `char = EOS` as `none`;
`load/read/parse_ws/parse_char/parse_chars/parse_key/parse_value/parse`, `Token.append`,
`Token.string`, `reorder_with_spans`; loops are recursions on the number of unread characters so
totality is by construction. First a lemma shows that the indexed state is equivalent to the list of
unread characters. Spec: inductive grammar `Stream` of texts together with the tokens they denote.
C01/C02: induction over tokens and values. C03: soundness by following the parser, completeness by
induction on the grammar. C04-C07: permutation and filter lemmas on association lists, then C01.
C08/C10: offsets by induction on the token list. C09 follows from C03's grammar and a direct lemma.

C11-C17 `Cpp`. Bytes as `UInt8` lists, `SplitUTF8StringToChars` by recursion on the remaining length,
parser over pieces. C11 against Lean's own UTF-8 encoding of `Char`. C12: simulation between the two
parsers with `raw value = escape(decoded value)`. C13, C14, C15, C17 are false of the code: the
negation is proved with a witness and a `_partial` theorem gives the largest true part.
C16: list lemmas.

C18-C23 `Align`. Arcs are pairs of optional bytes; the two loops are folds with an explicit state.
Invariant over all prefixes of the path; the claims about spans follow from monotone ownership.
C20: induction over characters. C22: direct on the assembled records. C23: both entry points run the
same candidate list; with the alignment of the selected output.

C24-C29 `NBest`. C24: oracle structure, invariant of the doubling stream. C25-C28: the search loop as
a step function over the streams' sequences; invariant: the accepted list is the prefix of the
specification's sorted distinct list; proved for every number of loop iterations. Termination for
finitely many pairs (C64), errors (C65). C29: case analysis on a small Python-value type.
C22/C23 are in `NBest` too, because the records need the candidate list. C23 assumes that a path of a
lattice composed with the acceptor of a text has that text as its output (`SelectsOutput`). The heap
is a list with extraction of the least entry; its serial number is left out because two entries never
have the same tagging rank (`SInv.ranks`).

C30-C44 `Cache`. `Prog.lean` has programs as trees of file-system operations with exceptions,
`Model.lean` the functions of tn/cache.py and `Processor.build_fst` as such programs. An operation
works (`Norm`), fails without effect, or takes effect and still raises; `Faults` says which
operations may do the last two, so "any failure" is the fault set with everything. The machine
(`Machine.lean`) interleaves any number of processes, each with its own program, and kills any of them
between two operations. `Logic.lean` is a rely-guarantee logic for it; `Trans` (`Trans.lean`) is the
guarantee: every change a lock holder makes, with what it knows at that point. C30: `_load_path` over
an arbitrary directory content. C31-C35: invariants preserved by `Trans`. C38/C39: directory
operations. C40, C42: over all traces with arbitrary outcomes (`Trace.lean`).
C36: `Dump.lean` models `json.dumps` and `json.loads` on texts; a value written in either style is
read back (`loadText_write`, mutual recursion over values), so the canonical text determines the value.
The key digests are those of an abstract `H`. C37: `Path.lean` models the parts of `posixpath` and
`pathlib` that are used, on texts; the specification of the guard is a walk along the segments.
C41 is false: collision witness for the hashed stream, and a partial theorem for trees where no file
contains the header of a file of the other. C43, C44: loops over arbitrary outcomes, clock readings and
chunkings (`Lock.lean`, `Reader.lean`).

What the cache model simplifies:

* POSIX branches only. A crash is the death of a process; what has been written stays, so `fsync`
  is a no-op and power loss is not modelled.
* The parent directory of one key prefix is a map from names to nodes, and a directory is a list of
  entries (regular file with bytes, link, other). Deeper nesting is an opaque "other" entry.
* Reading one file and writing one file are single operations (their loops are the subject of C44).
  A failing write may leave any bytes.
* A file descriptor is the inode; closing is not modelled.
* `FS.built` (all pairs built so far) and `FS.moves` (all renames so far) are history: no program reads
  them; `Run.alike` proves that runs do not depend on them.
* `mkdtemp` and `uuid4` return any name not in use.
* Explicit hypotheses, each a structure with its own comment: `Lawful` (json reads back what it wrote,
  sizes within the limits), `ReadsWork` (reading a bundle does not fail), `Undo` (the steps that undo a
  publication work), `Calm` (the steps of building and publishing work), `Plain` (no bundle file is a
  link or special file), `Key.Valid` (a digest does not begin with a dot).

* `json`: texts with lone surrogates do not exist, the digit limit of `int` is not modelled, the value
  of a float literal is a parameter; configurations and builder identities contain no floats.

C45-C47, C66 `Cli`. `Model.lean` has tn/cli.py and the part of argparse (CPython 3.11) its parsers
use. `Spelled` says declaratively which vectors spell which options; the parser accepts exactly the
vectors that spell acceptable options (`accepted`, `accepts`). The class `\d` is a parameter. Lines of
standard input are given; for files universal newlines are modelled (`file_texts`). C66 links the
constructors' `cache_config` to the key of C36.

C48-C50, C60 `Wfst`. A grammar is an expression `G` (`Basic.lean`); `G.den` gives its weighted relation
`List Char → List Char → W → Prop`, weights being integers in units of 10^-5. `Processor.lean` has the
grammar-building methods of `class Processor`. `Run.lean` is an interpreter proved sound and complete for
`den` (`mem_outputs`), so concrete cases are computed by the kernel. What this assumes about pynini:

* relations over characters instead of bytes (all class and table entries are whole characters);
* in a string literal of a grammar a backslash before `[`, `]` or a backslash is an escape and otherwise
  stands for itself; rows of a `string_file` are taken as they are (no table has brackets, one row has a
  single backslash), split at tabs, a one-column row standing for itself;
* `cdrewrite` with its default arguments: leftmost, obligatory, the left context matched against the
  output and the right context against the input (`Rewrites`); an insertion of the empty string (only
  `build_rule("")`) copies;
* costs are minima over sums; `optimize`, `copy` do not change the relation.

C51-C55, C57, C59 `ZhTn`. `Data.lean` and `CharData.lean` are the data tables of tn/chinese/data, written by
tools/mkdata.py; `Model.lean` has all rules and the normalizer. C51: closure induction. C53-C56: grammar of
numbers as relations, value function on spoken numerals as specification. C57: finite tables, acceptance as
an iff over all strings. C58, C59: same method. `Spec.lean` has what the readings mean (value of a spoken
numeral, written and spoken decimals, spelling digit by digit) and does not import the model; `Number.lean`,
`Value.lean`, `Signed.lean`, `Decimal.lean`, `Spell.lean`, `Calendar.lean` and `Post.lean` compute the
relations of the grammars; `Props.lean` and `PostProps.lean` state C53-C55, C57, C59, C67. `Wfst/Tokens.lean` gives the grammars that write
token streams quoting their input (`Tokens`), decided per rule from the paths of the expression (`Flat`);
`ZhTn/Tokens.lean` applies it to every rule. `Wfst/Pipeline.lean` joins grammars to the n-best pipeline of
`NBest`: `Runs p orders tg vg` says that `p` takes its token orders from `orders`, that its taggings of a text
are the outputs of `tg` by increasing cost and that its verbalizations are least-cost outputs of `vg`, ties
broken in any way; `runs_pipelineOf` builds one for all grammars with decidable runs. That pynini's
shortest-path search does this is assumed. `StreamProps.lean` states C51 and C52.

C51, C52, C68, C69 `ZhItn`, `JaTn`, `JaItn`: the rules of itn/chinese, tn/japanese and itn/japanese, with the
same split into `Data.lean`, `Model.lean`, `Tokens.lean`, `StreamProps.lean`. `Wfst/Loose.lean` handles taggers
whose tokens may have more than one space between fields (Japanese ITN times); `Wfst/Maps.lean` the grammars
that map a text character by character. `JaTn/Post.lean` computes the pre- and postprocessor.

C56 `ZhItn`: `Spec.lean` has the value of a spoken numeral with the short forms of everyday speech and the value
of a written number that keeps 万, 亿 or 兆; it does not import the model. `Value.lean` shows that every output
of the number grammar has the value of its input, `Inverse.lean` which outputs exist for the readings of `ZhTn`,
`NumberProps.lean` states C56.

C58, C70 `EnItn`: `Model.lean` has all rules of itn/english. `Spec.lean` reads number words from left to right
with a free-place discipline and names every number below 10^24; it does not import the model. `Number.lean`
shows that outputs of the cardinal grammar denote what the reader computes (`deleteAnd_heard`: deleting "and "
changes no heard word), `Accept.lean` that every name is accepted, `Ordinal.lean` both for ordinals. The
`cdrewrite` of the ordinal verbalizer has an empty match at the end of the text, which `Rewrites` does not
have; `ordinalSuffix` is written directly: of the matches that end the text the one that begins first counts.

C52, C71 `EnItn`: `Tokens.lean` applies `Wfst/Tokens.lean` with more markers (`style`, `kind`). `PieceSpec.lean`
says which texts are readable and does not import the model. `Wfst/Reads.lean` decides which characters a grammar
never reads, through compositions and rewrites; `Pieces.lean` concludes that only readable texts are tagged,
`StreamProps.lean` that all of them are tagged, verbalized and normalized.

C72, C73 `EnTn`: `Data.lean` and `WhitelistData.lean` are the tables of tn/english/data, `Model.lean` has all rules
of tn/english (roman.py is not used by the normalizer; see C95). `Spec.lean` does not import the model.
`Bits.lean` and `Tokens.lean` show for every rule that its taggings are fields that quote the text, `Ok.lean` that
runs are finite, `StreamProps.lean` states the theorems. Parameters and assumptions of the model:

* `Env.isP`, the characters of a Unicode punctuation category: no white space, NUL or digit among them;
* `Env.decade`, the `cdrewrite` of date.py built with a single character in place of an alphabet closure, for
  which pynini documents no meaning: nothing is assumed of it but that its loops read something;
* `names` stands for cardinal_number_name.far, a compiled transducer in the repository; `tools/checkfar.py`
  reads the file and compares it (all digit strings for acceptance, a sample for the names);
* `cdrewrite` with the empty match is written directly; the right context `[EOS]` or a class of characters is
  `Ctx.edgeOr`.

C74, C75, C76 `EnTn`: `NumberSpec.lean` says how numbers are written and what may be said for them (the English
names are those of `EnItn/Spec.lean`); it does not import the model. `Wfst/Enum.lean` lists the finite relations of
a grammar without loops; `Number.lean` uses it for the groups of three digits and proves the names by induction on
the groups. `Reading.lean` has the cardinal grammar, `Ordinal.lean` the written and spoken ordinals, `Fields.lean`
how a verbalizer reads back a field, `NumberProps.lean` the theorems.

C77: `Wfst/Must.lean` has decidable checks that every input of a grammar contains one of some characters or words,
with their meaning for all inputs; `Wfst/Plain.lean` shows that a text that only the `char` rule reads has one
tagging, one verbalization and one result; `PlainProps.lean` of `ZhTn`, `ZhItn`, `JaTn` and `JaItn` apply both to
all rules of each pipeline. `Unread` there is the specification of a text with nothing to read.

C78, C79: `Cpp/Runtime.lean` compares `Normalize` of the C++ runtime with `Processor.normalize` on one pair of
machines. `Deployed` is the assumption: the C++ machines map the bytes of a text to the bytes of the first output
that OpenFst's `ShortestPath(…, 1, true)` gives to Python too; `deployed_exists` shows that it can be met for every
pipeline. `Wfst/Utter.lean` defines `Utters orders v g` (every token that `g` writes is, put in the order of the
schema, accepted by `v`) with a rule for each shape of tagging grammar; `Utter.lean` of the four pipelines proves it
rule by rule; `Wfst/Deploy.lean` combines both; `RuntimeProps.lean` states the theorems.

C80: `JaTn/NumberSpec.lean` has the Japanese names of numbers, an evaluator for them, and what text writes which
digits; `Number.lean` computes the grammars group by group, `Integer.lean` joins the groups, `NumberProps.lean` has
the theorems.

C81: `Wfst/Best.lean` has cheapest taggings of a text in parts that no token joins, `Wfst/Local.lean` carries that
through verbalization (`Piped` lists what is used of a pipeline; `Winner p x z` says that `z` is a best result of
`x`), `Wfst/Shun.lean` computes which characters a grammar never reads, `Wfst/Clause.lean` has the generic
theorem. `Local.lean` in each directory supplies `Piped`, `ClauseProps.lean` the theorems. Japanese inverse
normalization is left out: its tagger writes tokens that do not fit `Piped`.

C82: `JaTn/TextSpec.lean` says which texts with numbers have which reading. `Wfst/Edge.lean` and `JaTn/Edge.lean`
compute for every rule what can stand before the first digit and after a digit of a token, so that no token goes
over the ends of a number; `Wfst/Single.lean` has texts that are one token; `JaTn/Words.lean` and `Text.lean` show
that only the cardinal rule reads a number that stands by itself; `TextProps.lean` has the theorems.

C83: `ZhTn/NameSpec.lean` has the Chinese names of numbers by division and remainder, `Names.lean` shows that the
digit-by-digit reading of C53 is that name, `NameProps.lean` has the theorems.

C84: `ZhTn/TextSpec.lean` says which texts with numbers, dates and times have which reading. `ZhTn/Edge.lean` has what
can stand before and after a digit in a token (with the percent sign looked at as a digit, for what follows a
percentage), `Words.lean`, `Dates.lean` and `Reads.lean` list every token over digits and marks with its cost,
`Text.lean` shows that the tokens are said in one way, `Stands.lean` that the intended token is the only cheapest one,
`TextProps.lean` has the theorems. The words before and the characters after are a sufficient condition, not a
necessary one.

C85: `JaItn/NumberSpec.lean` says how a number is to be written. `JaItn/Number.lean` goes from the tables upwards: a
rule reads the name of a number in exactly one way, at zero cost; only names below a hundred are run, the rest is cut
at 百, 千, 万 and 億, which the part before cannot read. `C85_inverse` puts this behind C80: what the text normalizer says
for digits is written as the number they write. `C85_beyond` is the counterexample to the wish that whatever is read
keeps its value.

C86, C87: `Cpp/Api.lean` models the C interface over a heap of addressed objects and the C++ program;
`Cpp/ApiSpec.lean` has the rules for a client, who knows pointers and what they stand for but not the memory. C86 is a
refinement: the heap stands for what the client has (`Stands`), call by call. Trusted: what `new`, `delete` and
`std::getline` do, and that a machine is a function from texts to texts. Running out of memory and the JNI binding are
not modelled.

C88: `JaItn/TextSpec.lean` says which texts with names of numbers are to be written how. `Wfst/EdgeOf.lean` works the
summaries of `Wfst/Edge.lean` out by a function; `JaItn/Edge.lean` applies it to every rule, with the characters of
numbers changed to a digit, once for those that begin a number and once for all of them. `JaItn/Text.lean` shows that a
name is read by the cardinal rule alone (every other rule needs a character that no name has), at a price below any
reading in parts. `Wfst/Local.lean` was widened to token streams with extra spaces, which the time rule writes.

C89: `JaItn/TripSpec.lean` says which texts come back. `JaItn/TripProps.lean` shows that such a text and what is said
for it meet the hypotheses of C82 and, the other way round, of C88.

C90: `ZhItn/TextSpec.lean` says which texts with names of integers are to be written how. `ZhItn/Names.lean` gives the
shape of names, which all their parts have; `Wfst/Bars.lean` and `Wfst/Outs.lean` work out that most rules read nothing of
that shape. `ZhItn/Piece.lean` and `ZhItn/Text.lean` go through what is left: a name is read as a whole, since pieces cost
more. `ZhItn/Edge.lean` works out what can stand before and after numbers in tokens, `ZhItn/TextProps.lean` puts it together.

C91: `ZhItn/TripSpec.lean` says which texts come back. `ZhItn/TripProps.lean` shows that such a text and what is said
for it meet the hypotheses of C84 and, the other way round, of C90.

C92: `EnItn/TextSpec.lean` says which English texts with names of numbers are to be written how. `EnItn/Groups.lean`
reads each rule of the tagger as a grammar over word groups and shows that a group with no known word is a word, a
character, a cardinal number, a year or a number of millions and so on. `EnItn/Split.lean` shows that no group crosses
the edge of a part. `EnItn/Reading.lean` gives the value of years and short numbers, `EnItn/Speak.lean` what the
verbalizer writes for the tokens, `EnItn/Parts.lean` the lightest tokens of one part. `EnItn/TextProps.lean` puts the
parts together.

C93: `Cpp/Android.lean` models the Android binding with its global variables and the arrays it holds; modified UTF-8 is
that of the JNI specification, and strings are UTF-16 code units. `Cpp/AndroidSpec.lean` says what a session returns
without speaking of modified UTF-8. `JNI_OnLoad`, null strings and running out of memory are not modelled.

C94: `Wfst/Chars.lean` has a check on grammars, that all they write and have not read is of a class (`adds`), and shows
that it is enough, also through the reordering of fields. The check is run on each grammar for every setting of the
switches; `Wfst/CharsSpec.lean` is the class.

C95: `EnTn/Roman.lean` models tn/english/rules/roman.py, which no normalizer uses by itself, with the lists of male and
female names as a parameter: all that matters is that no name is empty or has a quotation mark, backslash or NUL; `EnTn/RomanNames.lean`
checks this for all 7944 names in the files and their upper-case forms. `EnTn/RomanSpec.lean` has Roman numerals and what is to be said; `EnTn/RomanTable.lean` compares
the whole table with it. `EnTn/RomanRunProps.lean` has `normalize` of the rule for every pipeline that runs its two graphs.

C96, C97: `Utils/Labels.lean` models `load_labels` of tn/utils.py with universal newlines and the states of `csv.reader`
(dialect `excel`, tab as the delimiter; the limit on the size of a field and the error for NUL before Python 3.11 are left out).
`Utils/LabelsSpec.lean` is the grammar of the files. `Utils/Paths.lean` models `get_abs_path` of itn/utils.py on POSIX paths,
with `Path.resolve` as a parameter and, where it matters, without symbolic links. The data tables in the models were written by
tools/mkdata.py, which splits at tabs; no file that the code reads with `load_labels` has a quotation mark, so C96 says that
this is what the code reads.

Status per property is in `MANIFEST.json`.

## Axioms per theorem

Generated by `tools/axioms.py` from `#print axioms`.

**Classical.choice, Quot.sound, propext**

* `Verif.Align`: `C18_no_overlap`, `C18_spans`, `C19_spans`, `C63_trace_total`, `C20_character_to_byte`, `C20_inverse`, `C20_slice`, `C20_white_space`, `C20_spans`, `C21_ownership`, `C21_inside`, `C21_separator`, `C61_trace_rule`, `C62_linear`, `C63_transduce_total`, `C63_checked`
* `Verif.Cache`: `load_sound`, `load_complete`, `holds_unique`, `no_mixed_bundle`, `never_lost`, `stays_plain`, `recovery_restores`, `recovered_loads`, `failed_publish`, `failed_publish_loadable`, `one_holder`, `only_holder_changes`, `ended_released`, `built_once`, `warm_users`, `remove_only_known`, `others_untouched`, `other_key_untouched`, `recovery_untouched`, `published_unchanged`, `changed_not_published`, `memory_only`, `memory_result`, `keys_apart`, `foreign_rejected`, `manifest_reads_back`, `paths_inside`, `guard_exact`, `stream_determines_partial`, `fingerprint_determines_partial`, `fingerprint_order_free`, `counts_iff`, `fingerprint_ambiguous`
* `Verif.Cache.Lock`: `configured_spec`, `lock_refuses`, `validated_nonneg`, `enter_locked`, `timeout_spec`, `wait_bounded`, `other_errors`, `lock_closes`
* `Verif.Cache.Reader`: `read_sound`, `read_still`, `read_changed`, `write_all`
* `Verif.Cli`: `run_prints`, `lines_until_failure`, `accepted`, `accepts`, `unsupported_rejected`, `options_exact`, `switches_reach`, `defaults_agree`, `switches_in_key`, `switches_apart`
* `Verif.Cpp`: `C11_lossless`, `C11_total`, `C11_code_points`, `C11_abort`, `C11_length_code_points`, `C12_reorder_agrees`, `C12_pipelines_agree`, `C13_kept_fields_partial`, `C13_false`, `C14_same_schema_partial`, `C14_japanese_partial`, `C14_false`, `C15_acceptance_partial`, `C15_accepts_iff`, `C15_false`, `C16_trim`, `C16_trim_idempotent`, `C16_split`, `C17_file_name_partial`, `C17_tagger_partial`, `C17_false`, `C78_best`, `C78_mute`, `C78_untagged`
* `Verif.Cpp.Android`: `C93_init`, `C93_session`, `C93_utf8`, `C93_copied`, `C93_before_init`, `C93_leak`, `C93_plane`, `C93_zh_tn`, `C93_zh_itn`, `C93_files`
* `Verif.Cpp.Api`: `C86_client`, `C86_no_leak`, `C86_whole`, `C86_normalize`, `C86_create`, `C86_missing`, `C86_throws`, `C87_lines`, `C87_prints`, `C87_failure`, `C87_python`, `C87_carriage`
* `Verif.EnItn`: `C52_quotes`, `C58_value`, `C58_names`, `C58_rule`, `C70_names`, `C70_ending`, `C70_rule`, `C71_tagged`, `C71_normalized`, `C71_raises`, `C71_exists`, `C71_plain`, `C71_quoted_word`, `C92_en_itn`, `C92_en_itn_normalize`, `C94_en_itn`
* `Verif.EnTn`: `C72_quotes_partial`, `C72_angle`, `C73_normalized`, `C73_exists`, `C74_names`, `C74_roundTrip`, `C75_readings`, `C75_name`, `C75_value`, `C75_rule`, `C75_rule_name`, `C75_and_before_billion`, `C75_thousand`, `C76_written`, `C76_rule`, `C76_roundTrip`, `C94_en_tn`, `C95_rule`, `C95_normalize`, `C95_names`
* `Verif.JaItn`: `C52_quotes`, `C51_ja_itn`, `C51_ja_itn_exists`, `C51_ja_itn_chars`, `C77_ja_itn_tagging`, `C77_ja_itn`, `C78_ja_itn`, `C78_ja_itn_exists`, `C79_ja_itn`, `C85_integer`, `C85_decimal`, `C85_means`, `C85_inverse`, `C85_digits`, `C85_beyond`, `C88_ja_itn`, `C88_ja_itn_normalize`, `C89_ja_says`, `C89_ja_trip`, `C94_ja_itn`
* `Verif.JaTn`: `C52_quotes`, `C51_ja_tn`, `C51_ja_tn_exists`, `C51_ja_tn_chars`, `C68_postprocess`, `C68_charset`, `C68_off`, `C69_width`, `C69_year`, `C77_ja_tn_tagging`, `C77_ja_tn`, `C77_ja_tn_unchanged`, `C78_ja_tn_partial`, `C78_ja_tn_exists`, `C78_ja_tn_false`, `C79_ja_tn`, `C80_integer`, `C80_value`, `C80_unique`, `C80_every`, `C80_beyond`, `C80_decimal`, `C80_number`, `C80_year`, `C81_ja_tn`, `C81_ja_tn_normalize`, `C82_ja_tn`, `C82_ja_tn_normalize`, `C82_zero_oov`, `C94_ja_tn`
* `Verif.NBest`: `C22_records`, `C22_tokens`, `C22_identity`, `C23_same`, `C23_errors`, `C25_distinct`, `C26_cheapest`, `C26_ties`, `C26_unique`, `C27_prefix`, `C27_first`, `C28_best`, `C28_weight`, `C29_refused`, `C29_empty`, `C64_fuel`, `C64_finite`, `C64_bounded`, `C65_errors`, `C65_no_path`
* `Verif.Token`: `C01_write_parse`, `C01_string_parse`, `C03_parse_iff_grammar`, `C03_rejects_otherwise`, `C03_unambiguous`, `C04_reorder_keeps_fields`, `C05_schema_order`, `C05_C06_reorder_text`, `C06_exempt_unchanged`, `C07_reorder_idempotent`, `C08_spans_slice`, `C09_duplicates_rejected`, `C09_distinct_accepted`, `C10_token_positions`
* `Verif.Utils`: `C96_read`, `C96_once`, `C96_total`
* `Verif.Wfst`: `tag_field`, `tag_field_parses`, `verbalize_tagged`, `verbalize_plain`, `verbalize_only_tagged`, `tag_then_verbalize`, `joint_cost`
* `Verif.ZhItn`: `C52_quotes`, `C51_zh_itn`, `C51_zh_itn_exists`, `C51_zh_itn_chars`, `C56_short_after_wan`, `C56_inverse`, `C56_accepts`, `C56_digits`, `C77_zh_itn_tagging`, `C77_zh_itn`, `C78_zh_itn`, `C78_zh_itn_exists`, `C79_zh_itn`, `C81_zh_itn`, `C81_zh_itn_normalize`, `C90_zh_itn`, `C90_zh_itn_normalize`, `C91_zh_says`, `C91_zh_trip`, `C94_zh_itn`
* `Verif.ZhTn`: `C53_value`, `C53_readable`, `C53_every`, `C54_unique`, `C54_every`, `C67_says`, `C67_injective`, `C67_readable`, `C55_cardinal`, `C55_year`, `C55_total`, `C57_month_day`, `C57_hour`, `C57_minute_second`, `C59_postprocess`, `C59_charset`, `C59_off`, `C59_puncts`, `C59_oov`, `C52_quotes`, `C51_zh_tn`, `C51_zh_tn_exists`, `C51_zh_tn_chars`, `C77_zh_tn_tagging`, `C77_zh_tn`, `C77_zh_tn_unchanged`, `C78_zh_tn`, `C78_zh_tn_exists`, `C79_zh_tn`, `C81_zh_tn`, `C81_zh_tn_normalize`, `C83_decimal`, `C83_integer`, `C83_value`, `C83_injective`, `C84_zh_tn`, `C84_zh_tn_normalize`, `C84_decimal_date`, `C84_decimal_date_example`, `C94_zh_tn`

**Quot.sound, propext**

* `Verif.Cli`: `strip_suffix`
* `Verif.Cpp`: `C11_length`
* `Verif.EnTn`: `C95_value`
* `Verif.NBest`: `C24_enumerates`, `C24_peek`
* `Verif.Token`: `C02_escape_injective`, `C02_escape_spec`, `C02_reader_stops`, `C02_no_unescaped_quote`
* `Verif.Utils`: `C96_plain`, `C97_inside`, `C97_names`, `C97_below`, `C97_up`, `C97_absolute`
* `Verif.Wfst`: `tagger_union`, `verbalizer_union`
* `Verif.ZhItn`: `C56_value`
* `Verif.ZhTn`: `C67_determined`, `C55_recover`, `C55_unique`

**propext**

* `Verif.Cli`: `strip_one`, `file_texts`
* `Verif.EnTn`: `C95_keys`
* `Verif.NBest`: `C29_only`
* `Verif.ZhTn`: `C57_unique`
