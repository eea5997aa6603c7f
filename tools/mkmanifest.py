#!/usr/bin/env python3
"""Writes MANIFEST.json and checks that every theorem named in it exists in the sources."""
import json, os, re, sys
ROOT = os.path.join(os.path.dirname(os.path.abspath(__file__)), "..")
claims = []
def M(prop, status, ns, theorems, note=""):
    claims.append(dict(property=prop, status=status,
                       theorems=[ns + "." + t for t in theorems.split()], note=note))

T = "Verif.Token"
M("C01", "proved", T, "C01_write_parse C01_string_parse")
M("C02", "proved", T, "C02_escape_injective C02_escape_spec C02_reader_stops C02_no_unescaped_quote")
M("C03", "proved", T, "C03_parse_iff_grammar C03_rejects_otherwise C03_unambiguous")
M("C04", "proved", T, "C04_reorder_keeps_fields")
M("C05", "proved", T, "C05_schema_order C05_C06_reorder_text")
M("C06", "proved", T, "C06_exempt_unchanged C05_C06_reorder_text")
M("C07", "proved", T, "C07_reorder_idempotent")
M("C08", "proved", T, "C08_spans_slice")
M("C09", "proved", T, "C09_duplicates_rejected C09_distinct_accepted")
M("C10", "proved", T, "C10_token_positions")

P = "Verif.Cpp"
M("C11", "proved", P, "C11_lossless C11_total C11_code_points C11_abort C11_length C11_length_code_points")
M("C12", "proved", P, "C12_reorder_agrees C12_pipelines_agree")
M("C13", "partial", P, "C13_kept_fields_partial C13_false",
  "False of the code: undeclared fields of a schema-typed token are lost (C13_false). The partial theorem says exactly which fields are kept.")
M("C14", "partial", P, "C14_same_schema_partial C14_japanese_partial C14_false",
  "False of the code for Japanese normalization (C14_false). Proved for the five other pipelines, and for Japanese on every type except fraction, measure and time.")
M("C15", "partial", P, "C15_acceptance_partial C15_accepts_iff C15_false",
  "False of the code: repeated fields are accepted (C15_false). Proved: this is the only difference in acceptance.")
M("C16", "proved", P, "C16_trim C16_trim_idempotent C16_split")
M("C17", "partial", P, "C17_file_name_partial C17_tagger_partial C17_false",
  "False of the code when a directory name contains a marker (C17_false). Proved for all other directories.")
P = "Verif.Align"
M("C18", "proved", P, "C18_no_overlap C18_spans")
M("C19", "proved", P, "C19_spans C63_trace_total")
M("C20", "proved", P, "C20_character_to_byte C20_inverse C20_slice C20_white_space C20_spans")
M("C21", "proved", P, "C21_ownership C21_inside C21_separator")
M("C61", "proved", P, "C61_trace_rule")
M("C62", "proved", P, "C62_linear")
M("C63", "proved", P, "C63_transduce_total C63_checked C63_trace_total")

P = "Verif.NBest"
M("C22", "proved", P, "C22_records C22_tokens C22_identity")
M("C23", "proved", P, "C23_same C23_errors",
  "Assumes SelectsOutput: a path of a lattice composed with the acceptor of a text has that text as output.")
M("C24", "proved", P, "C24_enumerates C24_peek")
M("C25", "proved", P, "C25_distinct")
M("C26", "proved", P, "C26_cheapest C26_ties C26_unique")
M("C27", "proved", P, "C27_prefix C27_first")
M("C28", "proved", P, "C28_best C28_weight")
M("C29", "proved", P, "C29_refused C29_empty C29_only")
M("C64", "proved", P, "C64_fuel C64_finite C64_bounded")
M("C65", "proved", P, "C65_errors C65_no_path")

P = "Verif.Cache"
M("C30", "proved", P, "load_sound load_complete holds_unique", "load_sound: any directory content and any failing operation. Reading one file is one step (its loop over partial reads is C44).")
M("C31", "proved", P, "no_mixed_bundle", "Any number of builders, overwriting builders and readers, any schedule, any failures, crashes at any step. 'Written together' is Reloads: both graphs are read back from the serialisation of one built pair. In-memory clients touch no files (C42) and are left out.")
M("C32", "proved", P, "never_lost stays_plain recovery_restores recovered_loads", "Assumes that reading works (otherwise the code takes an unreadable bundle for a broken one) and the json round trip (Lawful). Recovery: no bundle file is a link or special file (Plain); with such a manifest.json the code itself raises. A crash is the death of a process, not of the machine.")
M("C33", "proved", P, "failed_publish failed_publish_loadable", "The steps that undo a publication are assumed to work (Undo); the failing step is any other one. If the failure comes after the new bundle is in place (removing the previous one), the new bundle is there.")
M("C34", "proved", P, "one_holder only_holder_changes ended_released", "flock is assumed to be exclusive and to be released by the death of the holder.")
M("C35", "proved", P, "built_once warm_users", "At most one build from any start. Same graphs: from a start without a loadable bundle (built_once) and from one with a loadable bundle (warm_users).")
M("C38", "proved", P, "remove_only_known")
M("C39", "proved", P, "others_untouched other_key_untouched recovery_untouched")
M("C40", "proved", P, "published_unchanged changed_not_published")
M("C42", "proved", P, "memory_only memory_result")
M("C36", "proved", P, "keys_apart foreign_rejected manifest_reads_back", "Configurations and builder identities are JSON values without floats; the digest is assumed not to collide on the four strings hashed for the two keys.")
M("C37", "proved", P, "paths_inside guard_exact", "POSIX paths; the root is an absolute path without '.' and '..', which resolve() returns.")
M("C41", "partial", P, "stream_determines_partial fingerprint_determines_partial fingerprint_order_free counts_iff fingerprint_ambiguous", "False of the code: fingerprint_ambiguous has two trees with equal streams, because contents are hashed without their length. Proved: different trees have different streams unless a file of one contains the length and path of a file of the other (paths below 256 bytes), and the fingerprint does not depend on the listing order.")
P = "Verif.Cache.Lock"
M("C43", "proved", P, "configured_spec lock_refuses validated_nonneg enter_locked timeout_spec wait_bounded other_errors lock_closes", "float() of the variable is a parameter; times are exact rationals.")
P = "Verif.Cache.Reader"
M("C44", "proved", P, "read_sound read_still read_changed write_all", "The file may change between any two reads.")

P = "Verif.Cli"
M("C45", "proved", P, "strip_one strip_suffix")
M("C46", "proved", P, "run_prints lines_until_failure file_texts", "Also with failures: lines before the failure are printed completely, nothing after it.")
M("C47", "proved", P, "accepted accepts unsupported_rejected options_exact switches_reach defaults_agree", "Includes argparse's rules for abbreviations, joined values and '--' (CPython 3.11).")
M("C66", "proved", P, "switches_in_key switches_apart")

P = "Verif.Wfst"
M("C48", "proved", P, "tag_field tag_field_parses", "Texts of valid characters (no NUL); the parser is the one of C03.")
M("C49", "proved", P, "verbalize_tagged verbalize_plain verbalize_only_tagged tag_then_verbalize")
M("C50", "proved", P, "joint_cost", "CostOf is the cost of an input/output pair: the least weight of a path.")
M("C60", "proved", P, "tagger_union verbalizer_union")

P = "Verif.ZhTn"
M("C53", "proved", P, "C53_value C53_readable C53_every", "The numeral evaluator is strict: it rejects misplaced or missing 零 and units out of order.")
M("C54", "proved", P, "C54_unique C54_every", "Uniqueness holds for every text the number grammars accept, with signs, decimals, percentages and prefixes.")
M("C67", "proved", P, "C67_says C67_determined C67_injective C67_readable")
M("C55", "proved", P, "C55_cardinal C55_year C55_recover C55_unique C55_total C67_says", "The digits after the point of a decimal are part of Says (C67_says).")
M("C57", "proved", P, "C57_month_day C57_hour C57_minute_second C57_unique")
M("C59", "proved", P, "C59_postprocess C59_charset C59_off C59_puncts C59_oov", "Texts without NUL.")

NS = ["ZhTn", "ZhItn", "JaTn", "JaItn"]
M("C52", "proved", "Verif", " ".join(n + ".C52_quotes" for n in NS + ["EnItn"]), "Separators are the ones the rules delete (space / - . : and their full-width forms; white space in English); the marker preserve_order, and style and kind in English, are not quotations.")
M("C51", "proved", "Verif", " ".join("%s.C51_%s%s" % (n, i, e) for n, i in zip(NS, ["zh_tn", "zh_itn", "ja_tn", "ja_itn"]) for e in ["", "_exists", "_chars"]), "For all switches. Runs says that shortest paths of the two graphs are found, ties broken in any way; the theorems *_exists show such pipelines exist.")
P = "Verif.JaTn"
M("C68", "proved", P, "C68_postprocess C68_charset C68_off", "Texts without NUL.")
M("C69", "proved", P, "C69_width C69_year", "Texts without NUL.")
M("C56", "proved", "Verif.ZhItn", "C56_value C56_short_after_wan C56_inverse C56_accepts C56_digits", "C56_value excludes the ambiguity shown by C56_short_after_wan; it needs enable_million off and a unit left out after 万.")
M("C58", "proved", "Verif.EnItn", "C58_value C58_names C58_rule", "")
M("C70", "proved", "Verif.EnItn", "C70_names C70_ending C70_rule", "")
M("C71", "proved", "Verif.EnItn", "C71_tagged C71_normalized C71_raises C71_exists C71_plain C71_quoted_word", "")

M("C72", "partial", "Verif.EnTn", "C72_quotes_partial C72_angle", "False of the code: between angle brackets quotation marks and backslashes are not escaped; C72_angle has a text with a tagging that does not parse. Proved for all texts without a quotation mark or backslash inside angle brackets. Years may lose a leading space; the markers integer: \"-\", units: \"address\" and units: \"math\" are not quotations.")
M("C73", "proved", "Verif.EnTn", "C73_normalized C73_exists", "The Unicode punctuation categories are a parameter (no white space, NUL or digit among them).")
M("C74", "proved", "Verif.EnTn", "C74_names C74_roundTrip", "The compiled transducer cardinal_number_name.far is modelled by a grammar; tools/checkfar.py compares the two.")
M("C75", "proved", "Verif.EnTn", "C75_readings C75_name C75_value C75_rule C75_rule_name C75_and_before_billion C75_thousand", "The last two theorems are defects of the grammar.")
M("C76", "proved", "Verif.EnTn", "C76_written C76_rule C76_roundTrip", "")

M("C77", "proved", "Verif", " ".join("%s.C77_%s%s" % (n, i, e) for n, i, es in [("ZhTn", "zh_tn", ["_tagging", "", "_unchanged"]), ("ZhItn", "zh_itn", ["_tagging", ""]), ("JaTn", "ja_tn", ["_tagging", "", "_unchanged"]), ("JaItn", "ja_itn", ["_tagging", ""])] for e in es),
  "Unread in each PlainProps.lean says which characters and words the rules can read.")

M("C78", "partial", "Verif", "ZhTn.C78_zh_tn ZhTn.C78_zh_tn_exists ZhItn.C78_zh_itn ZhItn.C78_zh_itn_exists JaItn.C78_ja_itn JaItn.C78_ja_itn_exists JaTn.C78_ja_tn_partial JaTn.C78_ja_tn_exists JaTn.C78_ja_tn_false Cpp.C78_best Cpp.C78_mute Cpp.C78_untagged",
  "False of the code for Japanese normalization (C78_ja_tn_false: 1/2 gives nothing). Proved for the three other pipelines and in general; for Japanese normalization for texts whose first tagging has no fraction, measure or time (C78_ja_tn_partial). English texts only through the general statement.")
M("C79", "proved", "Verif", "ZhTn.C79_zh_tn ZhItn.C79_zh_itn JaTn.C79_ja_tn JaItn.C79_ja_itn")
M("C80", "proved", "Verif.JaTn", "C80_integer C80_value C80_unique C80_every C80_beyond C80_decimal C80_number C80_year")

M("C81", "proved", "Verif", "JaTn.C81_ja_tn JaTn.C81_ja_tn_normalize ZhTn.C81_zh_tn ZhTn.C81_zh_tn_normalize ZhItn.C81_zh_itn ZhItn.C81_zh_itn_normalize",
  "Says p x z: z is a best result of x, no result being cheaper (nothing for the empty text).")

M("C82", "proved", "Verif.JaTn", "C82_ja_tn C82_ja_tn_normalize C82_zero_oov",
  "Text and Stands in TextSpec.lean say which texts and what is said; text_example is one. With transliteration on, its table reads digits and marks too; that setting is left out.")

M("C83", "proved", "Verif.ZhTn", "C83_decimal C83_integer C83_value C83_injective",
  "The name of a number is defined in NameSpec.lean by division and remainder only; Spec.value, the meaning of a Chinese numeral, is the independent reading of C53.")

M("C84", "proved", "Verif.ZhTn", "C84_zh_tn C84_zh_tn_normalize C84_decimal_date C84_decimal_date_example",
  "Text and Stands in TextSpec.lean say which texts and what is said; text_example is one, and each kind of Stands has an example beside it. Signed numbers, measures, money and scores are not among what stands by itself.")

M("C85", "proved", "Verif.JaItn", "C85_integer C85_decimal C85_means C85_inverse C85_digits C85_beyond",
  "digitsWith and means in NumberSpec.lean are independent of the model; the names are those of C80. C85_beyond is the text that is read although it is no name (一万十千, written 110000).")

M("C86", "proved", "Verif.Cpp.Api", "C86_client C86_no_leak C86_whole C86_normalize C86_create C86_missing C86_throws",
  "Does in ApiSpec.lean are the rules; sample_disciplined is a client that keeps to them. C86_create, C86_missing and C86_throws are where the header promises more than the code does. Running out of memory is not modelled.")
M("C87", "proved", "Verif.Cpp.Api", "C87_lines C87_prints C87_failure C87_python C87_carriage",
  "The parsing of the flags is gflags' and is not modelled; a file that cannot be opened is read as an empty one.")

M("C88", "proved", "Verif.JaItn", "C88_ja_itn C88_ja_itn_normalize",
  "Text, Stands, openers and closers in TextSpec.lean use the data tables only; text_example is a text of that form. The parts between are those of C77: without numerals and without the words ゼロ and れい.")

M("C89", "proved", "Verif.JaItn", "C89_ja_says C89_ja_trip",
  "Trip and Number in TripSpec.lean use the data tables only; trip_example is a text of that form. Numbers below ten come back only with enable_0_to_9.")

M("C90", "proved", "Verif.ZhItn", "C90_zh_itn C90_zh_itn_normalize",
  "Text, Stands, openers, each and closers in TextSpec.lean use the data tables only; text_example is a text of that form. The parts between are those of C77.")

M("C91", "proved", "Verif.ZhItn", "C91_zh_says C91_zh_trip",
  "Trip, Number and Steady in TripSpec.lean use the data tables only; trip_example is a text of that form.")

M("C92", "proved", "Verif.EnItn", "C92_en_itn C92_en_itn_normalize",
  "Text, Part, Ordinary and Short in TextSpec.lean use the data tables only; the examples beside the theorems are texts of that form. A number of millions said with and, as one hundred and five million, is written in digits, as 105000000.")

M("C93", "proved", "Verif.Cpp.Android", "C93_init C93_session C93_utf8 C93_copied C93_before_init C93_leak C93_plane C93_zh_tn C93_zh_itn C93_files",
  "Session in AndroidSpec.lean speaks of UTF-16 and UTF-8 only; a session is given beside the theorems. GetStringUTFChars and NewStringUTF follow the JNI specification.")

M("C94", "proved", "Verif", "ZhTn.C94_zh_tn ZhItn.C94_zh_itn JaTn.C94_ja_tn JaItn.C94_ja_itn EnItn.C94_en_itn EnTn.C94_en_tn",
  "Printed in CharsSpec.lean speaks of code points only. Beside each theorem stands a result with added characters and with a copied one outside the basic plane.")

M("C95", "proved", "Verif.EnTn", "C95_rule C95_normalize C95_names C95_value C95_keys",
  "SaysRoman, roman, romanValue and spoken in RomanSpec.lean do not use the tables; the names of persons are a parameter, and C95_names is for those of the repository.")

M("C96", "proved", "Verif.Utils", "C96_read C96_plain C96_once C96_total",
  "The reader of Python's csv module is modelled by its states; the grammar of files in LabelsSpec.lean does not use it.")
M("C97", "proved", "Verif.Utils", "C97_inside C97_names C97_below C97_up C97_absolute",
  "C97_inside holds for every function in place of Path.resolve.")

# ---- checks ----
decls = set()
for d, _, fs in os.walk(os.path.join(ROOT, "lean", "Verif")):
    for f in fs:
        if not f.endswith(".lean"): continue
        stack = []
        for line in open(os.path.join(d, f), encoding="utf-8"):
            m = re.match(r"namespace (\S+)", line)
            if m: stack.append(m.group(1))
            m = re.match(r"end (\S+)", line)
            if m and stack and stack[-1] == m.group(1): stack.pop()
            m = re.match(r"(?:private |protected )?theorem (\S+)", line)
            if m: decls.add(".".join(stack + [m.group(1)]))
props = [json.loads(l)["id"] for l in open(os.path.join(ROOT, "properties.jsonl"), encoding="utf-8")]
bad = [t for c in claims for t in c["theorems"] if t not in decls]
missing = [p for p in props if p not in {c["property"] for c in claims}]
if bad: print("UNKNOWN THEOREMS:", bad)
print("properties without a claim:", missing)
json.dump({"claims": claims}, open(os.path.join(ROOT, "MANIFEST.json"), "w"), indent=1, ensure_ascii=False)
# axiom audit
with open("/tmp/Audit.lean", "w") as f:
    f.write("import Verif\n" + "".join("#print axioms %s\n" % t for c in claims for t in c["theorems"]))
sys.exit(1 if bad else 0)
