{
 "claims": [
  {
   "property": "C01",
   "status": "proved",
   "theorems": [
    "Verif.Token.C01_write_parse",
    "Verif.Token.C01_string_parse"
   ],
   "note": ""
  },
  {
   "property": "C02",
   "status": "proved",
   "theorems": [
    "Verif.Token.C02_escape_injective",
    "Verif.Token.C02_escape_spec",
    "Verif.Token.C02_reader_stops",
    "Verif.Token.C02_no_unescaped_quote"
   ],
   "note": ""
  },
  {
   "property": "C03",
   "status": "proved",
   "theorems": [
    "Verif.Token.C03_parse_iff_grammar",
    "Verif.Token.C03_rejects_otherwise",
    "Verif.Token.C03_unambiguous"
   ],
   "note": ""
  },
  {
   "property": "C04",
   "status": "proved",
   "theorems": [
    "Verif.Token.C04_reorder_keeps_fields"
   ],
   "note": ""
  },
  {
   "property": "C05",
   "status": "proved",
   "theorems": [
    "Verif.Token.C05_schema_order",
    "Verif.Token.C05_C06_reorder_text"
   ],
   "note": ""
  },
  {
   "property": "C06",
   "status": "proved",
   "theorems": [
    "Verif.Token.C06_exempt_unchanged",
    "Verif.Token.C05_C06_reorder_text"
   ],
   "note": ""
  },
  {
   "property": "C07",
   "status": "proved",
   "theorems": [
    "Verif.Token.C07_reorder_idempotent"
   ],
   "note": ""
  },
  {
   "property": "C08",
   "status": "proved",
   "theorems": [
    "Verif.Token.C08_spans_slice"
   ],
   "note": ""
  },
  {
   "property": "C09",
   "status": "proved",
   "theorems": [
    "Verif.Token.C09_duplicates_rejected",
    "Verif.Token.C09_distinct_accepted"
   ],
   "note": ""
  },
  {
   "property": "C10",
   "status": "proved",
   "theorems": [
    "Verif.Token.C10_token_positions"
   ],
   "note": ""
  },
  {
   "property": "C11",
   "status": "proved",
   "theorems": [
    "Verif.Cpp.C11_lossless",
    "Verif.Cpp.C11_total",
    "Verif.Cpp.C11_code_points",
    "Verif.Cpp.C11_abort",
    "Verif.Cpp.C11_length",
    "Verif.Cpp.C11_length_code_points"
   ],
   "note": ""
  },
  {
   "property": "C12",
   "status": "proved",
   "theorems": [
    "Verif.Cpp.C12_reorder_agrees",
    "Verif.Cpp.C12_pipelines_agree"
   ],
   "note": ""
  },
  {
   "property": "C13",
   "status": "partial",
   "theorems": [
    "Verif.Cpp.C13_kept_fields_partial",
    "Verif.Cpp.C13_false"
   ],
   "note": "False of the code: undeclared fields of a schema-typed token are lost (C13_false). The partial theorem says exactly which fields are kept."
  },
  {
   "property": "C14",
   "status": "partial",
   "theorems": [
    "Verif.Cpp.C14_same_schema_partial",
    "Verif.Cpp.C14_japanese_partial",
    "Verif.Cpp.C14_false"
   ],
   "note": "False of the code for Japanese normalization (C14_false). Proved for the five other pipelines, and for Japanese on every type except fraction, measure and time."
  },
  {
   "property": "C15",
   "status": "partial",
   "theorems": [
    "Verif.Cpp.C15_acceptance_partial",
    "Verif.Cpp.C15_accepts_iff",
    "Verif.Cpp.C15_false"
   ],
   "note": "False of the code: repeated fields are accepted (C15_false). Proved: this is the only difference in acceptance."
  },
  {
   "property": "C16",
   "status": "proved",
   "theorems": [
    "Verif.Cpp.C16_trim",
    "Verif.Cpp.C16_trim_idempotent",
    "Verif.Cpp.C16_split"
   ],
   "note": ""
  },
  {
   "property": "C17",
   "status": "partial",
   "theorems": [
    "Verif.Cpp.C17_file_name_partial",
    "Verif.Cpp.C17_tagger_partial",
    "Verif.Cpp.C17_false"
   ],
   "note": "False of the code when a directory name contains a marker (C17_false). Proved for all other directories."
  },
  {
   "property": "C18",
   "status": "proved",
   "theorems": [
    "Verif.Align.C18_no_overlap",
    "Verif.Align.C18_spans"
   ],
   "note": ""
  },
  {
   "property": "C19",
   "status": "proved",
   "theorems": [
    "Verif.Align.C19_spans",
    "Verif.Align.C63_trace_total"
   ],
   "note": ""
  },
  {
   "property": "C20",
   "status": "proved",
   "theorems": [
    "Verif.Align.C20_character_to_byte",
    "Verif.Align.C20_inverse",
    "Verif.Align.C20_slice",
    "Verif.Align.C20_white_space",
    "Verif.Align.C20_spans"
   ],
   "note": ""
  },
  {
   "property": "C21",
   "status": "proved",
   "theorems": [
    "Verif.Align.C21_ownership",
    "Verif.Align.C21_inside",
    "Verif.Align.C21_separator"
   ],
   "note": ""
  },
  {
   "property": "C61",
   "status": "proved",
   "theorems": [
    "Verif.Align.C61_trace_rule"
   ],
   "note": ""
  },
  {
   "property": "C62",
   "status": "proved",
   "theorems": [
    "Verif.Align.C62_linear"
   ],
   "note": ""
  },
  {
   "property": "C63",
   "status": "proved",
   "theorems": [
    "Verif.Align.C63_transduce_total",
    "Verif.Align.C63_checked",
    "Verif.Align.C63_trace_total"
   ],
   "note": ""
  },
  {
   "property": "C22",
   "status": "proved",
   "theorems": [
    "Verif.NBest.C22_records",
    "Verif.NBest.C22_tokens",
    "Verif.NBest.C22_identity"
   ],
   "note": ""
  },
  {
   "property": "C23",
   "status": "proved",
   "theorems": [
    "Verif.NBest.C23_same",
    "Verif.NBest.C23_errors"
   ],
   "note": "Assumes SelectsOutput: a path of a lattice composed with the acceptor of a text has that text as output."
  },
  {
   "property": "C24",
   "status": "proved",
   "theorems": [
    "Verif.NBest.C24_enumerates",
    "Verif.NBest.C24_peek"
   ],
   "note": ""
  },
  {
   "property": "C25",
   "status": "proved",
   "theorems": [
    "Verif.NBest.C25_distinct"
   ],
   "note": ""
  },
  {
   "property": "C26",
   "status": "proved",
   "theorems": [
    "Verif.NBest.C26_cheapest",
    "Verif.NBest.C26_ties",
    "Verif.NBest.C26_unique"
   ],
   "note": ""
  },
  {
   "property": "C27",
   "status": "proved",
   "theorems": [
    "Verif.NBest.C27_prefix",
    "Verif.NBest.C27_first"
   ],
   "note": ""
  },
  {
   "property": "C28",
   "status": "proved",
   "theorems": [
    "Verif.NBest.C28_best",
    "Verif.NBest.C28_weight"
   ],
   "note": ""
  },
  {
   "property": "C29",
   "status": "proved",
   "theorems": [
    "Verif.NBest.C29_refused",
    "Verif.NBest.C29_empty",
    "Verif.NBest.C29_only"
   ],
   "note": ""
  },
  {
   "property": "C64",
   "status": "proved",
   "theorems": [
    "Verif.NBest.C64_fuel",
    "Verif.NBest.C64_finite",
    "Verif.NBest.C64_bounded"
   ],
   "note": ""
  },
  {
   "property": "C65",
   "status": "proved",
   "theorems": [
    "Verif.NBest.C65_errors",
    "Verif.NBest.C65_no_path"
   ],
   "note": ""
  },
  {
   "property": "C30",
   "status": "proved",
   "theorems": [
    "Verif.Cache.load_sound",
    "Verif.Cache.load_complete",
    "Verif.Cache.holds_unique"
   ],
   "note": "load_sound: any directory content and any failing operation. Reading one file is one step (its loop over partial reads is C44)."
  },
  {
   "property": "C31",
   "status": "proved",
   "theorems": [
    "Verif.Cache.no_mixed_bundle"
   ],
   "note": "Any number of builders, overwriting builders and readers, any schedule, any failures, crashes at any step. 'Written together' is Reloads: both graphs are read back from the serialisation of one built pair. In-memory clients touch no files (C42) and are left out."
  },
  {
   "property": "C32",
   "status": "proved",
   "theorems": [
    "Verif.Cache.never_lost",
    "Verif.Cache.stays_plain",
    "Verif.Cache.recovery_restores",
    "Verif.Cache.recovered_loads"
   ],
   "note": "Assumes that reading works (otherwise the code takes an unreadable bundle for a broken one) and the json round trip (Lawful). Recovery: no bundle file is a link or special file (Plain); with such a manifest.json the code itself raises. A crash is the death of a process, not of the machine."
  },
  {
   "property": "C33",
   "status": "proved",
   "theorems": [
    "Verif.Cache.failed_publish",
    "Verif.Cache.failed_publish_loadable"
   ],
   "note": "The steps that undo a publication are assumed to work (Undo); the failing step is any other one. If the failure comes after the new bundle is in place (removing the previous one), the new bundle is there."
  },
  {
   "property": "C34",
   "status": "proved",
   "theorems": [
    "Verif.Cache.one_holder",
    "Verif.Cache.only_holder_changes",
    "Verif.Cache.ended_released"
   ],
   "note": "flock is assumed to be exclusive and to be released by the death of the holder."
  },
  {
   "property": "C35",
   "status": "proved",
   "theorems": [
    "Verif.Cache.built_once",
    "Verif.Cache.warm_users"
   ],
   "note": "At most one build from any start. Same graphs: from a start without a loadable bundle (built_once) and from one with a loadable bundle (warm_users)."
  },
  {
   "property": "C38",
   "status": "proved",
   "theorems": [
    "Verif.Cache.remove_only_known"
   ],
   "note": ""
  },
  {
   "property": "C39",
   "status": "proved",
   "theorems": [
    "Verif.Cache.others_untouched",
    "Verif.Cache.other_key_untouched",
    "Verif.Cache.recovery_untouched"
   ],
   "note": ""
  },
  {
   "property": "C40",
   "status": "proved",
   "theorems": [
    "Verif.Cache.published_unchanged",
    "Verif.Cache.changed_not_published"
   ],
   "note": ""
  },
  {
   "property": "C42",
   "status": "proved",
   "theorems": [
    "Verif.Cache.memory_only",
    "Verif.Cache.memory_result"
   ],
   "note": ""
  },
  {
   "property": "C36",
   "status": "proved",
   "theorems": [
    "Verif.Cache.keys_apart",
    "Verif.Cache.foreign_rejected",
    "Verif.Cache.manifest_reads_back"
   ],
   "note": "Configurations and builder identities are JSON values without floats; the digest is assumed not to collide on the four strings hashed for the two keys."
  },
  {
   "property": "C37",
   "status": "proved",
   "theorems": [
    "Verif.Cache.paths_inside",
    "Verif.Cache.guard_exact"
   ],
   "note": "POSIX paths; the root is an absolute path without '.' and '..', which resolve() returns."
  },
  {
   "property": "C41",
   "status": "partial",
   "theorems": [
    "Verif.Cache.stream_determines_partial",
    "Verif.Cache.fingerprint_determines_partial",
    "Verif.Cache.fingerprint_order_free",
    "Verif.Cache.counts_iff",
    "Verif.Cache.fingerprint_ambiguous"
   ],
   "note": "False of the code: fingerprint_ambiguous has two trees with equal streams, because contents are hashed without their length. Proved: different trees have different streams unless a file of one contains the length and path of a file of the other (paths below 256 bytes), and the fingerprint does not depend on the listing order."
  },
  {
   "property": "C43",
   "status": "proved",
   "theorems": [
    "Verif.Cache.Lock.configured_spec",
    "Verif.Cache.Lock.lock_refuses",
    "Verif.Cache.Lock.validated_nonneg",
    "Verif.Cache.Lock.enter_locked",
    "Verif.Cache.Lock.timeout_spec",
    "Verif.Cache.Lock.wait_bounded",
    "Verif.Cache.Lock.other_errors",
    "Verif.Cache.Lock.lock_closes"
   ],
   "note": "float() of the variable is a parameter; times are exact rationals."
  },
  {
   "property": "C44",
   "status": "proved",
   "theorems": [
    "Verif.Cache.Reader.read_sound",
    "Verif.Cache.Reader.read_still",
    "Verif.Cache.Reader.read_changed",
    "Verif.Cache.Reader.write_all"
   ],
   "note": "The file may change between any two reads."
  },
  {
   "property": "C45",
   "status": "proved",
   "theorems": [
    "Verif.Cli.strip_one",
    "Verif.Cli.strip_suffix"
   ],
   "note": ""
  },
  {
   "property": "C46",
   "status": "proved",
   "theorems": [
    "Verif.Cli.run_prints",
    "Verif.Cli.lines_until_failure",
    "Verif.Cli.file_texts"
   ],
   "note": "Also with failures: lines before the failure are printed completely, nothing after it."
  },
  {
   "property": "C47",
   "status": "proved",
   "theorems": [
    "Verif.Cli.accepted",
    "Verif.Cli.accepts",
    "Verif.Cli.unsupported_rejected",
    "Verif.Cli.options_exact",
    "Verif.Cli.switches_reach",
    "Verif.Cli.defaults_agree"
   ],
   "note": "Includes argparse's rules for abbreviations, joined values and '--' (CPython 3.11)."
  },
  {
   "property": "C66",
   "status": "proved",
   "theorems": [
    "Verif.Cli.switches_in_key",
    "Verif.Cli.switches_apart"
   ],
   "note": ""
  },
  {
   "property": "C48",
   "status": "proved",
   "theorems": [
    "Verif.Wfst.tag_field",
    "Verif.Wfst.tag_field_parses"
   ],
   "note": "Texts of valid characters (no NUL); the parser is the one of C03."
  },
  {
   "property": "C49",
   "status": "proved",
   "theorems": [
    "Verif.Wfst.verbalize_tagged",
    "Verif.Wfst.verbalize_plain",
    "Verif.Wfst.verbalize_only_tagged",
    "Verif.Wfst.tag_then_verbalize"
   ],
   "note": ""
  },
  {
   "property": "C50",
   "status": "proved",
   "theorems": [
    "Verif.Wfst.joint_cost"
   ],
   "note": "CostOf is the cost of an input/output pair: the least weight of a path."
  },
  {
   "property": "C60",
   "status": "proved",
   "theorems": [
    "Verif.Wfst.tagger_union",
    "Verif.Wfst.verbalizer_union"
   ],
   "note": ""
  },
  {
   "property": "C53",
   "status": "proved",
   "theorems": [
    "Verif.ZhTn.C53_value",
    "Verif.ZhTn.C53_readable",
    "Verif.ZhTn.C53_every"
   ],
   "note": "The numeral evaluator is strict: it rejects misplaced or missing 零 and units out of order."
  },
  {
   "property": "C54",
   "status": "proved",
   "theorems": [
    "Verif.ZhTn.C54_unique",
    "Verif.ZhTn.C54_every"
   ],
   "note": "Uniqueness holds for every text the number grammars accept, with signs, decimals, percentages and prefixes."
  },
  {
   "property": "C67",
   "status": "proved",
   "theorems": [
    "Verif.ZhTn.C67_says",
    "Verif.ZhTn.C67_determined",
    "Verif.ZhTn.C67_injective",
    "Verif.ZhTn.C67_readable"
   ],
   "note": ""
  },
  {
   "property": "C55",
   "status": "proved",
   "theorems": [
    "Verif.ZhTn.C55_cardinal",
    "Verif.ZhTn.C55_year",
    "Verif.ZhTn.C55_recover",
    "Verif.ZhTn.C55_unique",
    "Verif.ZhTn.C55_total",
    "Verif.ZhTn.C67_says"
   ],
   "note": "The digits after the point of a decimal are part of Says (C67_says)."
  },
  {
   "property": "C57",
   "status": "proved",
   "theorems": [
    "Verif.ZhTn.C57_month_day",
    "Verif.ZhTn.C57_hour",
    "Verif.ZhTn.C57_minute_second",
    "Verif.ZhTn.C57_unique"
   ],
   "note": ""
  },
  {
   "property": "C59",
   "status": "proved",
   "theorems": [
    "Verif.ZhTn.C59_postprocess",
    "Verif.ZhTn.C59_charset",
    "Verif.ZhTn.C59_off",
    "Verif.ZhTn.C59_puncts",
    "Verif.ZhTn.C59_oov"
   ],
   "note": "Texts without NUL."
  },
  {
   "property": "C52",
   "status": "proved",
   "theorems": [
    "Verif.ZhTn.C52_quotes",
    "Verif.ZhItn.C52_quotes",
    "Verif.JaTn.C52_quotes",
    "Verif.JaItn.C52_quotes",
    "Verif.EnItn.C52_quotes"
   ],
   "note": "Separators are the ones the rules delete (space / - . : and their full-width forms; white space in English); the marker preserve_order, and style and kind in English, are not quotations."
  },
  {
   "property": "C51",
   "status": "proved",
   "theorems": [
    "Verif.ZhTn.C51_zh_tn",
    "Verif.ZhTn.C51_zh_tn_exists",
    "Verif.ZhTn.C51_zh_tn_chars",
    "Verif.ZhItn.C51_zh_itn",
    "Verif.ZhItn.C51_zh_itn_exists",
    "Verif.ZhItn.C51_zh_itn_chars",
    "Verif.JaTn.C51_ja_tn",
    "Verif.JaTn.C51_ja_tn_exists",
    "Verif.JaTn.C51_ja_tn_chars",
    "Verif.JaItn.C51_ja_itn",
    "Verif.JaItn.C51_ja_itn_exists",
    "Verif.JaItn.C51_ja_itn_chars"
   ],
   "note": "For all switches. Runs says that shortest paths of the two graphs are found, ties broken in any way; the theorems *_exists show such pipelines exist."
  },
  {
   "property": "C68",
   "status": "proved",
   "theorems": [
    "Verif.JaTn.C68_postprocess",
    "Verif.JaTn.C68_charset",
    "Verif.JaTn.C68_off"
   ],
   "note": "Texts without NUL."
  },
  {
   "property": "C69",
   "status": "proved",
   "theorems": [
    "Verif.JaTn.C69_width",
    "Verif.JaTn.C69_year"
   ],
   "note": "Texts without NUL."
  },
  {
   "property": "C56",
   "status": "proved",
   "theorems": [
    "Verif.ZhItn.C56_value",
    "Verif.ZhItn.C56_short_after_wan",
    "Verif.ZhItn.C56_inverse",
    "Verif.ZhItn.C56_accepts",
    "Verif.ZhItn.C56_digits"
   ],
   "note": "C56_value excludes the ambiguity shown by C56_short_after_wan; it needs enable_million off and a unit left out after 万."
  },
  {
   "property": "C58",
   "status": "proved",
   "theorems": [
    "Verif.EnItn.C58_value",
    "Verif.EnItn.C58_names",
    "Verif.EnItn.C58_rule"
   ],
   "note": ""
  },
  {
   "property": "C70",
   "status": "proved",
   "theorems": [
    "Verif.EnItn.C70_names",
    "Verif.EnItn.C70_ending",
    "Verif.EnItn.C70_rule"
   ],
   "note": ""
  },
  {
   "property": "C71",
   "status": "proved",
   "theorems": [
    "Verif.EnItn.C71_tagged",
    "Verif.EnItn.C71_normalized",
    "Verif.EnItn.C71_raises",
    "Verif.EnItn.C71_exists",
    "Verif.EnItn.C71_plain",
    "Verif.EnItn.C71_quoted_word"
   ],
   "note": ""
  },
  {
   "property": "C72",
   "status": "partial",
   "theorems": [
    "Verif.EnTn.C72_quotes_partial",
    "Verif.EnTn.C72_angle"
   ],
   "note": "False of the code: between angle brackets quotation marks and backslashes are not escaped; C72_angle has a text with a tagging that does not parse. Proved for all texts without a quotation mark or backslash inside angle brackets. Years may lose a leading space; the markers integer: \"-\", units: \"address\" and units: \"math\" are not quotations."
  },
  {
   "property": "C73",
   "status": "proved",
   "theorems": [
    "Verif.EnTn.C73_normalized",
    "Verif.EnTn.C73_exists"
   ],
   "note": "The Unicode punctuation categories are a parameter (no white space, NUL or digit among them)."
  },
  {
   "property": "C74",
   "status": "proved",
   "theorems": [
    "Verif.EnTn.C74_names",
    "Verif.EnTn.C74_roundTrip"
   ],
   "note": "The compiled transducer cardinal_number_name.far is modelled by a grammar; tools/checkfar.py compares the two."
  },
  {
   "property": "C75",
   "status": "proved",
   "theorems": [
    "Verif.EnTn.C75_readings",
    "Verif.EnTn.C75_name",
    "Verif.EnTn.C75_value",
    "Verif.EnTn.C75_rule",
    "Verif.EnTn.C75_rule_name",
    "Verif.EnTn.C75_and_before_billion",
    "Verif.EnTn.C75_thousand"
   ],
   "note": "The last two theorems are defects of the grammar."
  },
  {
   "property": "C76",
   "status": "proved",
   "theorems": [
    "Verif.EnTn.C76_written",
    "Verif.EnTn.C76_rule",
    "Verif.EnTn.C76_roundTrip"
   ],
   "note": ""
  },
  {
   "property": "C77",
   "status": "proved",
   "theorems": [
    "Verif.ZhTn.C77_zh_tn_tagging",
    "Verif.ZhTn.C77_zh_tn",
    "Verif.ZhTn.C77_zh_tn_unchanged",
    "Verif.ZhItn.C77_zh_itn_tagging",
    "Verif.ZhItn.C77_zh_itn",
    "Verif.JaTn.C77_ja_tn_tagging",
    "Verif.JaTn.C77_ja_tn",
    "Verif.JaTn.C77_ja_tn_unchanged",
    "Verif.JaItn.C77_ja_itn_tagging",
    "Verif.JaItn.C77_ja_itn"
   ],
   "note": "Unread in each PlainProps.lean says which characters and words the rules can read."
  },
  {
   "property": "C78",
   "status": "partial",
   "theorems": [
    "Verif.ZhTn.C78_zh_tn",
    "Verif.ZhTn.C78_zh_tn_exists",
    "Verif.ZhItn.C78_zh_itn",
    "Verif.ZhItn.C78_zh_itn_exists",
    "Verif.JaItn.C78_ja_itn",
    "Verif.JaItn.C78_ja_itn_exists",
    "Verif.JaTn.C78_ja_tn_partial",
    "Verif.JaTn.C78_ja_tn_exists",
    "Verif.JaTn.C78_ja_tn_false",
    "Verif.Cpp.C78_best",
    "Verif.Cpp.C78_mute",
    "Verif.Cpp.C78_untagged"
   ],
   "note": "False of the code for Japanese normalization (C78_ja_tn_false: 1/2 gives nothing). Proved for the three other pipelines and in general; for Japanese normalization for texts whose first tagging has no fraction, measure or time (C78_ja_tn_partial). English texts only through the general statement."
  },
  {
   "property": "C79",
   "status": "proved",
   "theorems": [
    "Verif.ZhTn.C79_zh_tn",
    "Verif.ZhItn.C79_zh_itn",
    "Verif.JaTn.C79_ja_tn",
    "Verif.JaItn.C79_ja_itn"
   ],
   "note": ""
  },
  {
   "property": "C80",
   "status": "proved",
   "theorems": [
    "Verif.JaTn.C80_integer",
    "Verif.JaTn.C80_value",
    "Verif.JaTn.C80_unique",
    "Verif.JaTn.C80_every",
    "Verif.JaTn.C80_beyond",
    "Verif.JaTn.C80_decimal",
    "Verif.JaTn.C80_number",
    "Verif.JaTn.C80_year"
   ],
   "note": ""
  },
  {
   "property": "C81",
   "status": "proved",
   "theorems": [
    "Verif.JaTn.C81_ja_tn",
    "Verif.JaTn.C81_ja_tn_normalize",
    "Verif.ZhTn.C81_zh_tn",
    "Verif.ZhTn.C81_zh_tn_normalize",
    "Verif.ZhItn.C81_zh_itn",
    "Verif.ZhItn.C81_zh_itn_normalize"
   ],
   "note": "Says p x z: z is a best result of x, no result being cheaper (nothing for the empty text)."
  },
  {
   "property": "C82",
   "status": "proved",
   "theorems": [
    "Verif.JaTn.C82_ja_tn",
    "Verif.JaTn.C82_ja_tn_normalize",
    "Verif.JaTn.C82_zero_oov"
   ],
   "note": "Text and Stands in TextSpec.lean say which texts and what is said; text_example is one. With transliteration on, its table reads digits and marks too; that setting is left out."
  },
  {
   "property": "C83",
   "status": "proved",
   "theorems": [
    "Verif.ZhTn.C83_decimal",
    "Verif.ZhTn.C83_integer",
    "Verif.ZhTn.C83_value",
    "Verif.ZhTn.C83_injective"
   ],
   "note": "The name of a number is defined in NameSpec.lean by division and remainder only; Spec.value, the meaning of a Chinese numeral, is the independent reading of C53."
  },
  {
   "property": "C84",
   "status": "proved",
   "theorems": [
    "Verif.ZhTn.C84_zh_tn",
    "Verif.ZhTn.C84_zh_tn_normalize",
    "Verif.ZhTn.C84_decimal_date",
    "Verif.ZhTn.C84_decimal_date_example"
   ],
   "note": "Text and Stands in TextSpec.lean say which texts and what is said; text_example is one, and each kind of Stands has an example beside it. Signed numbers, measures, money and scores are not among what stands by itself."
  },
  {
   "property": "C85",
   "status": "proved",
   "theorems": [
    "Verif.JaItn.C85_integer",
    "Verif.JaItn.C85_decimal",
    "Verif.JaItn.C85_means",
    "Verif.JaItn.C85_inverse",
    "Verif.JaItn.C85_digits",
    "Verif.JaItn.C85_beyond"
   ],
   "note": "digitsWith and means in NumberSpec.lean are independent of the model; the names are those of C80. C85_beyond is the text that is read although it is no name (一万十千, written 110000)."
  },
  {
   "property": "C86",
   "status": "proved",
   "theorems": [
    "Verif.Cpp.Api.C86_client",
    "Verif.Cpp.Api.C86_no_leak",
    "Verif.Cpp.Api.C86_whole",
    "Verif.Cpp.Api.C86_normalize",
    "Verif.Cpp.Api.C86_create",
    "Verif.Cpp.Api.C86_missing",
    "Verif.Cpp.Api.C86_throws"
   ],
   "note": "Does in ApiSpec.lean are the rules; sample_disciplined is a client that keeps to them. C86_create, C86_missing and C86_throws are where the header promises more than the code does. Running out of memory is not modelled."
  },
  {
   "property": "C87",
   "status": "proved",
   "theorems": [
    "Verif.Cpp.Api.C87_lines",
    "Verif.Cpp.Api.C87_prints",
    "Verif.Cpp.Api.C87_failure",
    "Verif.Cpp.Api.C87_python",
    "Verif.Cpp.Api.C87_carriage"
   ],
   "note": "The parsing of the flags is gflags' and is not modelled; a file that cannot be opened is read as an empty one."
  },
  {
   "property": "C88",
   "status": "proved",
   "theorems": [
    "Verif.JaItn.C88_ja_itn",
    "Verif.JaItn.C88_ja_itn_normalize"
   ],
   "note": "Text, Stands, openers and closers in TextSpec.lean use the data tables only; text_example is a text of that form. The parts between are those of C77: without numerals and without the words ゼロ and れい."
  },
  {
   "property": "C89",
   "status": "proved",
   "theorems": [
    "Verif.JaItn.C89_ja_says",
    "Verif.JaItn.C89_ja_trip"
   ],
   "note": "Trip and Number in TripSpec.lean use the data tables only; trip_example is a text of that form. Numbers below ten come back only with enable_0_to_9."
  },
  {
   "property": "C90",
   "status": "proved",
   "theorems": [
    "Verif.ZhItn.C90_zh_itn",
    "Verif.ZhItn.C90_zh_itn_normalize"
   ],
   "note": "Text, Stands, openers, each and closers in TextSpec.lean use the data tables only; text_example is a text of that form. The parts between are those of C77."
  },
  {
   "property": "C91",
   "status": "proved",
   "theorems": [
    "Verif.ZhItn.C91_zh_says",
    "Verif.ZhItn.C91_zh_trip"
   ],
   "note": "Trip, Number and Steady in TripSpec.lean use the data tables only; trip_example is a text of that form."
  },
  {
   "property": "C92",
   "status": "proved",
   "theorems": [
    "Verif.EnItn.C92_en_itn",
    "Verif.EnItn.C92_en_itn_normalize"
   ],
   "note": "Text, Part, Ordinary and Short in TextSpec.lean use the data tables only; the examples beside the theorems are texts of that form. A number of millions said with and, as one hundred and five million, is written in digits, as 105000000."
  },
  {
   "property": "C93",
   "status": "proved",
   "theorems": [
    "Verif.Cpp.Android.C93_init",
    "Verif.Cpp.Android.C93_session",
    "Verif.Cpp.Android.C93_utf8",
    "Verif.Cpp.Android.C93_copied",
    "Verif.Cpp.Android.C93_before_init",
    "Verif.Cpp.Android.C93_leak",
    "Verif.Cpp.Android.C93_plane",
    "Verif.Cpp.Android.C93_zh_tn",
    "Verif.Cpp.Android.C93_zh_itn",
    "Verif.Cpp.Android.C93_files"
   ],
   "note": "Session in AndroidSpec.lean speaks of UTF-16 and UTF-8 only; a session is given beside the theorems. GetStringUTFChars and NewStringUTF follow the JNI specification."
  },
  {
   "property": "C94",
   "status": "proved",
   "theorems": [
    "Verif.ZhTn.C94_zh_tn",
    "Verif.ZhItn.C94_zh_itn",
    "Verif.JaTn.C94_ja_tn",
    "Verif.JaItn.C94_ja_itn",
    "Verif.EnItn.C94_en_itn",
    "Verif.EnTn.C94_en_tn"
   ],
   "note": "Printed in CharsSpec.lean speaks of code points only. Beside each theorem stands a result with added characters and with a copied one outside the basic plane."
  },
  {
   "property": "C95",
   "status": "proved",
   "theorems": [
    "Verif.EnTn.C95_rule",
    "Verif.EnTn.C95_normalize",
    "Verif.EnTn.C95_names",
    "Verif.EnTn.C95_value",
    "Verif.EnTn.C95_keys"
   ],
   "note": "SaysRoman, roman, romanValue and spoken in RomanSpec.lean do not use the tables; the names of persons are a parameter, and C95_names is for those of the repository."
  },
  {
   "property": "C96",
   "status": "proved",
   "theorems": [
    "Verif.Utils.C96_read",
    "Verif.Utils.C96_plain",
    "Verif.Utils.C96_once",
    "Verif.Utils.C96_total"
   ],
   "note": "The reader of Python's csv module is modelled by its states; the grammar of files in LabelsSpec.lean does not use it."
  },
  {
   "property": "C97",
   "status": "proved",
   "theorems": [
    "Verif.Utils.C97_inside",
    "Verif.Utils.C97_names",
    "Verif.Utils.C97_below",
    "Verif.Utils.C97_up",
    "Verif.Utils.C97_absolute"
   ],
   "note": "C97_inside holds for every function in place of Path.resolve."
  }
 ]
}