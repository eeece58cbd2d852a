{
 "claims": [
  {
   "property": "C01",
   "status": "proved",
   "theorems": [
    "Verif.Props.PoString.C01_round_trip",
    "Verif.Props.PoString.C01_round_trip_any_bytes",
    "Verif.Props.PoString.C01_injective"
   ],
   "note": "All representable strings, all widths; plus normalisation law for arbitrary bytes and injectivity."
  },
  {
   "property": "C02",
   "status": "proved",
   "theorems": [
    "Verif.Props.PoString.C02_quoted_block",
    "Verif.Props.PoString.C02_every_line_quoted"
   ],
   "note": "Every successful encoding, all widths."
  },
  {
   "property": "C03",
   "status": "partial",
   "theorems": [
    "Verif.Props.PoString.C03_negation",
    "Verif.Props.PoString.C03_terminates_partial",
    "Verif.Props.PoString.C03_hangs_iff"
   ],
   "note": "False of the code (C03_negation: the line \"\\\" hangs). Exact termination condition proved."
  },
  {
   "property": "C04",
   "status": "partial",
   "theorems": [
    "Verif.Props.PoString.C04_negation",
    "Verif.Props.PoString.C04_no_panic_partial",
    "Verif.Props.PoString.C04_only_fault"
   ],
   "note": "False of the code (C04_negation: control byte without named escape). Exact panic condition proved."
  },
  {
   "property": "C05",
   "status": "proved",
   "theorems": [
    "Verif.Props.PoString.C05_valid_utf8"
   ],
   "note": ""
  },
  {
   "property": "C06",
   "status": "partial",
   "theorems": [
    "Verif.Props.Wrap.C06_negation",
    "Verif.Props.Wrap.C06_words_kept_partial",
    "Verif.Props.Wrap.C06_words_kept_iff",
    "Verif.Props.Wrap.C06_words_not_lost",
    "Verif.Props.Wrap.C06_words_kept_no_leading_blank",
    "Verif.Props.Wrap.C06_characters_kept",
    "Verif.Props.Wrap.C06_width"
   ],
   "note": "False of the code (C06_negation). Words kept exactly for the texts whose indented lines have a first word that is at most one character too long, or blanks that fill the line (C06_words_kept_iff); never fewer words; characters and width bound for every text."
  },
  {
   "property": "C07",
   "status": "partial",
   "theorems": [
    "Verif.Props.PoEncoder.C07_round_trip_partial",
    "Verif.Props.PoEncoder.C07_header_partial",
    "Verif.Props.PoEncoder.C07_exact_partial",
    "Verif.Props.PoEncoder.C07_negation",
    "Verif.Props.PoEncoder.C07_translations_negation",
    "Verif.Props.PoEncoder.C07_comment_negation",
    "Verif.Props.PoEncoder.C07_text_negation"
   ],
   "note": "All files of writable messages, all encoder options and widths, any sorting that permutes: what is read back is stated field by field (C07_round_trip_partial, C07_header_partial), and equality when nothing can be lost (C07_exact_partial). The full claim is false: C07_negation, C07_translations_negation, C07_comment_negation, C07_text_negation."
  },
  {
   "property": "C08",
   "status": "proved",
   "theorems": [
    "Verif.Props.PoParser.C08_split",
    "Verif.Props.PoParser.C08_local",
    "Verif.Props.PoParser.C08_insert",
    "Verif.Props.PoParser.C08_entries"
   ],
   "note": "Arbitrary text before and after the entry (C08_local, C08_insert), arbitrary texts separated by a blank line (C08_split), whole files of entries (C08_entries). Entries have the syntax of Verif.Spec.PoEntry; lines fit into the line buffer."
  },
  {
   "property": "C09",
   "status": "partial",
   "theorems": [
    "Verif.Props.Adjacent.C09_exact",
    "Verif.Props.Adjacent.C09_accepted_iff",
    "Verif.Props.Adjacent.C09_kept_iff",
    "Verif.Props.PoParser.C09_negation",
    "Verif.Props.PoParser.C09_negation_comment",
    "Verif.Props.PoParser.C09_separated_entries_partial",
    "Verif.Props.PoParser.C09_accepted_partial"
   ],
   "note": "False of the code: adjacent entries are merged, and in the catalog decoder even entries separated by a comment. Proved for entries separated by a blank line or a visible comment. C09_exact says which messages any sequence of entries gives, C09_accepted_iff when it is accepted, and C09_kept_iff that no entry is lost exactly if all are separated."
  },
  {
   "property": "C10",
   "status": "partial",
   "theorems": [
    "Verif.Props.AcceptedFiles.C10_exact",
    "Verif.Props.AcceptedFiles.C10_served_iff",
    "Verif.Props.PoParser.C10_negation",
    "Verif.Props.PoParser.C10_fuzzy_not_served_partial",
    "Verif.Props.PoParser.C10_second_flag_line_partial"
   ],
   "note": "False of the code if the flag line follows the previous entry directly. Proved for entries after a blank line in arbitrary surroundings and for a flag line that is not the first. C10_exact and C10_served_iff say exactly what is served from a file of well-formed entries."
  },
  {
   "property": "C11",
   "status": "partial",
   "theorems": [
    "Verif.Props.PoParser.C11_long_line",
    "Verif.Props.PoParser.C11_negation",
    "Verif.Props.PoParser.C11_all_lines_partial",
    "Verif.Props.PoParser.C11_checked_lines",
    "Verif.Props.PoParser.C11_garbage_rejected_partial"
   ],
   "note": "False of the code: a line of 65536 or more bytes ends the file silently. C11_checked_lines: exactly the lines in front of the first such line are checked, in every file."
  },
  {
   "property": "C12",
   "status": "partial",
   "theorems": [
    "Verif.Props.AcceptedFiles.C12_accepted_iff",
    "Verif.Props.PoParser.C12_duplicate",
    "Verif.Props.PoParser.C12_no_overwrite",
    "Verif.Props.PoParser.C12_negation_header",
    "Verif.Props.PoParser.C12_negation_context",
    "Verif.Props.PoParser.C12_second_header_partial"
   ],
   "note": "Duplicates and no-overwrite proved for arbitrary surrounding text. A second header is accepted if the first is unreadable; proved rejected otherwise. C12_accepted_iff: exactly the files of well-formed entries that are accepted."
  },
  {
   "property": "C13",
   "status": "partial",
   "theorems": [
    "Verif.Props.PluralLines.C13_lines",
    "Verif.Props.PluralLines.C13_right_iff",
    "Verif.Props.PoParser.C13_negation",
    "Verif.Props.PoParser.C13_negation_no_space",
    "Verif.Props.PoParser.C13_plural_index_partial"
   ],
   "note": "False of the code for continuation lines after indices out of order and without a space before the quote; proved otherwise, for every set and order of indices. C13_lines says exactly where every line goes, and C13_right_iff that the texts come out right exactly if every text with continuation lines stands at the position of its index."
  },
  {
   "property": "C14",
   "status": "partial",
   "theorems": [
    "Verif.Props.PoEncoder.C14_references_partial",
    "Verif.Props.PoEncoder.C14_keys_partial",
    "Verif.Props.PoEncoder.C14_custom_partial",
    "Verif.Props.PoEncoder.C14_negation",
    "Verif.Props.PoEncoder.C14_references_negation",
    "Verif.Props.PoEncoder.C14_cycle_negation",
    "Verif.Props.PoEncoder.C14_flags_negation"
   ],
   "note": "False of the code (four witnesses). Proved for the default order if all messages have different first references or none has references, and for every sort function that orders the keys strictly; at most one unknown header field."
  },
  {
   "property": "C15",
   "status": "partial",
   "theorems": [
    "Verif.Props.PoFile.C15_merge_keeps",
    "Verif.Props.PoFile.C15_merge_comment",
    "Verif.Props.PoFile.C15_history",
    "Verif.Props.PoFile.C15_history_keeps",
    "Verif.Props.PoFile.C15_history_first",
    "Verif.Props.PoFile.C15_merge_again_partial",
    "Verif.Props.PoFile.C15_negation"
   ],
   "note": "Histories of any length. Re-merging the same comment is false of the code for indented comment lines (C15_negation); proved for trimmed ones."
  },
  {
   "property": "C16",
   "status": "partial",
   "theorems": [
    "Verif.Props.PoFile.C16_known",
    "Verif.Props.PoFile.C16_set_get_partial",
    "Verif.Props.PoFile.C16_others",
    "Verif.Props.PoFile.C16_set_get_iff",
    "Verif.Props.PoFile.C16_negation",
    "Verif.Props.PoHeader.C16_names"
   ],
   "note": "Every key, value and header; case variants only in ASCII. False for values with surrounding blanks and non-ASCII case pairs (C16_negation). C16_set_get_iff: for an unknown field, exactly when Get returns what Set stored."
  },
  {
   "property": "C17",
   "status": "partial",
   "theorems": [
    "Verif.Props.Mo.C17_exact_partial",
    "Verif.Props.Mo.C17_images_exist",
    "Verif.Props.Mo.C17_round_trip_partial",
    "Verif.Props.Mo.C17_header",
    "Verif.Props.Mo.C17_catalog",
    "Verif.Props.Mo.C17_no_panic",
    "Verif.Props.Mo.C17_negation"
   ],
   "note": "Every image in either byte order with every layout; images exist for every list (C17_images_exist). False for entries with a context and an empty id, which are dropped (C17_negation); proved that exactly the others are found."
  },
  {
   "property": "C18",
   "status": "partial",
   "theorems": [
    "Verif.Props.Mo.C18_accepted_iff_partial",
    "Verif.Props.Mo.C18_magic",
    "Verif.Props.Mo.C18_short",
    "Verif.Props.Mo.C18_version",
    "Verif.Props.Mo.C18_table",
    "Verif.Props.Mo.C18_string_start_partial",
    "Verif.Props.Mo.C18_negation",
    "Verif.Props.Mo.C18_nothing_invented"
   ],
   "note": "False of the code for strings that start inside and end outside the file (C18_negation). Proved: exact characterisation of the accepted files; wrong magic, unknown revision, short header, tables outside, string starts outside are rejected."
  },
  {
   "property": "C19",
   "status": "proved",
   "theorems": [
    "Verif.Props.Gettext.C19_lookup",
    "Verif.Props.Gettext.C19_lookup_plural",
    "Verif.Props.Gettext.C19_lookup_complete",
    "Verif.Props.Gettext.C19_lookup_plural_complete",
    "Verif.Props.Json.C19_json_lookup",
    "Verif.Props.Json.C19_json_lookup_plural",
    "Verif.Props.Json.C19_json_complete"
   ],
   "note": "Gettext and JSON catalogs, every map, context, id and number."
  },
  {
   "property": "C20",
   "status": "proved",
   "theorems": [
    "Verif.Props.Gettext.C20_fuzzy",
    "Verif.Props.Gettext.C20_parsed_files_consistent",
    "Verif.Props.Gettext.C20_exactly_non_fuzzy",
    "Verif.Props.Gettext.C20_lookup",
    "Verif.Props.Gettext.C20_lookup_plural",
    "Verif.Props.Gettext.C20_map_order",
    "Verif.Props.Gettext.C20_inconsistent_file_panics"
   ],
   "note": "Files made by AddMessage are consistent; hand-made inconsistent files panic (C20_inconsistent_file_panics)."
  },
  {
   "property": "C21",
   "status": "partial",
   "theorems": [
    "Verif.Props.Gettext.C21_negation",
    "Verif.Props.Gettext.C21_copy_of_empty_partial"
   ],
   "note": "False of the code: Messages() panics for every non-empty catalog (C21_negation). Proved for empty ones."
  },
  {
   "property": "C22",
   "status": "partial",
   "theorems": [
    "Verif.Props.Gettext.C22_negation",
    "Verif.Props.Json.C22_json_domain_partial"
   ],
   "note": "False of the code for gettext catalogs, whose domain is never set (C22_negation). Proved for JSON catalogs, including the domain in errors."
  },
  {
   "property": "C23",
   "status": "proved",
   "theorems": [
    "Verif.Props.Gettext.C23_cldr_index",
    "Verif.Props.Gettext.C23_injective"
   ],
   "note": "Every language chain and number."
  },
  {
   "property": "C24",
   "status": "partial",
   "theorems": [
    "Verif.Props.Json.C24_built_partial",
    "Verif.Props.Json.C24_decoded_partial",
    "Verif.Props.Json.C24_texts",
    "Verif.Props.Json.C24_negation",
    "Verif.Props.Json.C24_stored",
    "Verif.Props.Json.C24_stored_iff"
   ],
   "note": "Categories exact for decoded files and every iteration order; C24_stored gives every stored text, C24_stored_iff exactly the messages for which the claim holds. False: an empty Other text is accepted and unknown category numbers stay (C24_negation)."
  },
  {
   "property": "C25",
   "status": "partial",
   "theorems": [
    "Verif.Props.Json.C25_message_order",
    "Verif.Props.Json.C25_key_order_partial",
    "Verif.Props.Json.C25_negation",
    "Verif.Props.Json.C25_key_order_iff"
   ],
   "note": "Message map order: every Go map. Key order within one message: exactly if keys that name the same thing have the same value (C25_key_order_iff); false otherwise (C25_negation)."
  },
  {
   "property": "C26",
   "status": "partial",
   "theorems": [
    "Verif.Props.Json.C26_round_trip_partial",
    "Verif.Props.Json.C26_negation",
    "Verif.Props.Json.C26_round_trip_iff"
   ],
   "note": "Exactly the portable messages survive (C26_round_trip_iff): valid UTF-8, only named categories, at least one text, not a lone non-Other form. False otherwise (C26_negation)."
  },
  {
   "property": "C27",
   "status": "partial",
   "theorems": [
    "Verif.Props.PoPlural.C27_negation",
    "Verif.Props.PoPlural.C27_c_semantics_partial",
    "Verif.Props.PoPlural.C27_accepted_is_formula",
    "Verif.Props.PoPluralExact.C27_exact",
    "Verif.Props.PoPluralExact.C27_agrees_iff",
    "Verif.Props.PoPluralExact.C27_any"
   ],
   "note": "False of the code (C27_negation: only 1 counts as true). C27_exact says what the code computes for every formula whose operands do not hide looser operators in parentheses: the C value of the formula `strict e`, in which conditions compare with 1, x % 0 is 0 and numerals saturate; C27_agrees_iff: it agrees with C exactly where that value does; C27_any covers every other formula. Accepted texts are formulas."
  },
  {
   "property": "C28",
   "status": "partial",
   "theorems": [
    "Verif.Props.PoPlural.C28_negation",
    "Verif.Props.PoPlural.C28_builtin_same_partial",
    "Verif.Props.PoPlural.C28_table"
   ],
   "note": "False of the code (C28_negation: the normal form drops parentheses). Proved for plain formulas, and for every key of the table."
  },
  {
   "property": "C29",
   "status": "proved",
   "theorems": [
    "Verif.Props.PoPlural.C29_in_range",
    "Verif.Props.PoPlural.C29_language_rule"
   ],
   "note": "Every built-in rule, every integer; language choice always yields such a rule."
  },
  {
   "property": "C30",
   "status": "proved",
   "theorems": [
    "Verif.Props.PoPlural.C30_accepted",
    "Verif.Props.PoPlural.C30_accepted_any",
    "Verif.Props.PoPlural.C30_layout_irrelevant",
    "Verif.Props.PoPlural.C30_every_expression"
   ],
   "note": "Every text of every expression, under the reading of truth that the code uses (see C27)."
  },
  {
   "property": "C31",
   "status": "proved",
   "theorems": [
    "Verif.Props.PoPlural.C31_total",
    "Verif.Props.PoPlural.C31_parse_total"
   ],
   "note": ""
  },
  {
   "property": "C32",
   "status": "partial",
   "theorems": [
    "Verif.Props.PoPlural.C32_float",
    "Verif.Props.PoPlural.C32_float_sign",
    "Verif.Props.PoPlural.C32_int_partial",
    "Verif.Props.PoPlural.C32_uint_partial",
    "Verif.Props.PoPlural.C32_int_nearest",
    "Verif.Props.PoPlural.C32_int_held",
    "Verif.Props.PoPlural.C32_no_number",
    "Verif.Props.PoPlural.C32_error_only",
    "Verif.Props.PoPlural.C32_negation"
   ],
   "note": "Floats: all finite floats below 2^63. Integers: the form of a nearest integer that a float64 holds, which is the integer itself exactly if a float64 holds it; false for the others and for typed nil pointers (C32_negation)."
  },
  {
   "property": "C33",
   "status": "proved",
   "theorems": [
    "Verif.Props.Cldr.C33_category_listed",
    "Verif.Props.Cldr.C33_category_listed_builtin",
    "Verif.Props.Cldr.C33_category_listed_parsed"
   ],
   "note": "Every tag chain, all built-in sets, and rule sets made by ParseRules; all operands."
  },
  {
   "property": "C34",
   "status": "partial",
   "theorems": [
    "Verif.Props.Cldr.C34_builtin_follows_published_rules_partial",
    "Verif.Props.Cldr.C34_builtin_follows_published_rules_compact_partial",
    "Verif.Props.Cldr.C34_builtin_follows_published_rules_int_partial",
    "Verif.Props.Cldr.C34_negation",
    "Verif.Props.Cldr.C34_near_negation"
   ],
   "note": "False of the code: what is above 1 by at most 0.0000009 counts as 1 (C34_negation, C34_near_negation). Proved for all languages and all integers below 2^53 and numbers below 2^33 with at most 15 places that are at least 0.000002 away from the integers, in particular all with at most five places, also in compact notation."
  },
  {
   "property": "C35",
   "status": "partial",
   "theorems": [
    "Verif.Props.Cldr.C35_operands_independent_partial",
    "Verif.Props.Cldr.C35_text",
    "Verif.Props.Cldr.C35_operands_sign_partial",
    "Verif.Props.Cldr.C35_negation",
    "Verif.Props.CldrOperands.C35_text_integer",
    "Verif.Props.CldrOperands.C35_text_iff",
    "Verif.Props.CldrOperands.C35_large_negation"
   ],
   "note": "False of the code (C35_negation: text \"-1\", floats printed with an exponent, smallest int64; C35_large_negation). Proved for naturals below 2^53, for the sign of int64, and for floats against the text that %v prints (C35_text). The text of an int64 has the operands of the integer exactly if a float64 holds it (C35_text_iff), otherwise i is that of a nearest one (C35_text_integer)."
  },
  {
   "property": "C36",
   "status": "proved",
   "theorems": [
    "Verif.Props.Cldr.C36_compact_shift",
    "Verif.Props.Cldr.C36_compact_operands"
   ],
   "note": "Every decimal, every exponent below 2^63."
  },
  {
   "property": "C37",
   "status": "partial",
   "theorems": [
    "Verif.Props.Cldr.C37_order_irrelevant_partial",
    "Verif.Props.Cldr.C37_published_rules_deterministic_partial",
    "Verif.Props.Cldr.C37_negation",
    "Verif.Props.Cldr.C37_order_iff",
    "Verif.Props.Cldr.C37_one_applies_iff"
   ],
   "note": "False of the code (C37_negation: overlapping rules, explicit Other). Holds exactly if all rules that apply or panic say the same (C37_order_iff), and for the published rules of all languages."
  },
  {
   "property": "C38",
   "status": "partial",
   "theorems": [
    "Verif.Props.Cldr.C38_evaluation_total_partial",
    "Verif.Props.Cldr.C38_grammar_total_partial",
    "Verif.Props.Cldr.C38_published_total",
    "Verif.Props.Cldr.C38_negation",
    "Verif.Props.CldrFaults.C38_works_iff",
    "Verif.Props.CldrFaults.C38_no_short_cut"
   ],
   "note": "False of the code (C38_negation: zero modulus, upper case operand). C38_works_iff says exactly which accepted rules can be evaluated for which operands; nothing is skipped (C38_no_short_cut). All rules of the grammar with non-zero moduli, in particular all published ones, can."
  },
  {
   "property": "C39",
   "status": "proved",
   "theorems": [
    "Verif.Props.Localizer.C39_own",
    "Verif.Props.Localizer.C39_fallback",
    "Verif.Props.Localizer.C39_source",
    "Verif.Props.Localizer.C39_own_plural",
    "Verif.Props.Localizer.C39_fallback_plural",
    "Verif.Props.Localizer.C39_source_plural"
   ],
   "note": "For sane localizers; C43_localizer_sane shows that every localizer of a bundle is sane."
  },
  {
   "property": "C40",
   "status": "partial",
   "theorems": [
    "Verif.Props.Bundle.C40_bundle_partial",
    "Verif.Props.Localizer.C40_text_partial",
    "Verif.Props.Localizer.C40_text_plural_partial",
    "Verif.Props.Localizer.C40_negation",
    "Verif.Props.Localizer.C40_panics_iff",
    "Verif.Props.Localizer.C40_panics_plural_iff",
    "Verif.Props.Localizer.C40_translated_iff",
    "Verif.Props.Localizer.C40_translated_plural_iff"
   ],
   "note": "False for nil catalogs (C40_negation). C40_panics_iff, C40_panics_plural_iff say exactly when a lookup panics, C40_translated_iff and its plural version when there is no error; a text is returned otherwise."
  },
  {
   "property": "C41",
   "status": "partial",
   "theorems": [
    "Verif.Props.Localizer.C41_singular",
    "Verif.Props.Localizer.C41_plural_partial",
    "Verif.Props.Localizer.C41_negation",
    "Verif.Props.Localizer.C41_plural_exact",
    "Verif.Props.Localizer.C41_once_iff"
   ],
   "note": "Singular lookups: proved. Plural lookups: the exact reports of every lookup (C41_plural_exact); once per locale exactly if own and fallback language differ (C41_once_iff); a localizer for the fallback language reports twice (C41_negation)."
  },
  {
   "property": "C42",
   "status": "proved",
   "theorems": [
    "Verif.Props.Localizer.C42_singular",
    "Verif.Props.Localizer.C42_plural",
    "Verif.Props.Localizer.C42_same_text",
    "Verif.Props.Localizer.C42_empty_plural"
   ],
   "note": "All sixteen methods. C42_empty_plural: an empty plural text means Get, not NGet."
  },
  {
   "property": "C43",
   "status": "partial",
   "theorems": [
    "Verif.Props.Bundle.C43_required_partial",
    "Verif.Props.Bundle.C43_optional",
    "Verif.Props.Bundle.C43_required_exact",
    "Verif.Props.Bundle.C43_source",
    "Verif.Props.Bundle.C43_source_present",
    "Verif.Props.Bundle.C43_negation",
    "Verif.Props.Bundle.C43_localizer_sane"
   ],
   "note": "False if the language was named as optional before (C43_negation); proved otherwise. In general a required language is in the bundle with at least one catalog, and lacks exactly those its loaders do not give (C43_required_exact). Source and optional languages: proved."
  },
  {
   "property": "C44",
   "status": "partial",
   "theorems": [
    "Verif.Props.Bundle.C44_order_partial",
    "Verif.Props.Bundle.C44_negation",
    "Verif.Props.Bundle.C44_created",
    "Verif.Props.Bundle.C44_domains_negation"
   ],
   "note": "If no loader returns an ErrMissingLanguage of its own (C44_negation). In general, the order decides only on whether there is a bundle and on Domains (C44_domains_negation): two bundles have the same languages and lookups (C44_created)."
  },
  {
   "property": "C45",
   "status": "partial",
   "theorems": [
    "Verif.Props.Bundle.C45_negation",
    "Verif.Props.Bundle.C45_no_language_partial",
    "Verif.Props.Creation.C45_exact",
    "Verif.Props.Creation.C45_first_iff"
   ],
   "note": "False: every bundle that loads a language asks the printer before Init (C45_negation). The calls of the printer are proved exactly (C45_exact): Init comes first if and only if the bundle has no languages (C45_first_iff)."
  },
  {
   "property": "C46",
   "status": "partial",
   "theorems": [
    "Verif.Props.Loader.C46_resolve",
    "Verif.Props.Loader.C46_documented",
    "Verif.Props.Loader.C46_no_search",
    "Verif.Props.Loader.C46_plain_paths",
    "Verif.Props.Loader.C46_first_existing_partial",
    "Verif.Props.Loader.C46_first_file_partial",
    "Verif.Props.Loader.C46_not_found_iff",
    "Verif.Props.Loader.C46_negation"
   ],
   "note": "Proved that the first existing place in the documented order decides, for every file system, and that not-found is reported exactly if none exists. A directory counts as existing and hides files (C46_negation)."
  },
  {
   "property": "C47",
   "status": "proved",
   "theorems": [
    "Verif.Props.Loader.C47_members",
    "Verif.Props.Loader.C47_order",
    "Verif.Props.Loader.C47_nodup",
    "Verif.Props.Loader.C47_unique",
    "Verif.Props.Loader.C47_special_before_base"
   ],
   "note": "For every tag data; the list is also unique (C47_unique)."
  },
  {
   "property": "C48",
   "status": "proved",
   "theorems": [
    "Verif.Props.Loader.C48_name",
    "Verif.Props.Loader.C48_unchanged",
    "Verif.Props.Loader.C48_suffix",
    "Verif.Props.Loader.C48_idempotent"
   ],
   "note": "Everything up to language.Parse, which is not modelled."
  },
  {
   "property": "C49",
   "status": "partial",
   "theorems": [
    "Verif.Props.Calendar.C49_is_leap",
    "Verif.Props.Calendar.C49_leap_days_partial",
    "Verif.Props.Calendar.C49_leap_days_reversed_partial",
    "Verif.Props.Calendar.C49_negation"
   ],
   "note": "The leap year test is right for every integer; the count for years in (-2^52, 2^52]; false for larger years, where float64 merges neighbours (C49_negation)."
  },
  {
   "property": "C50",
   "status": "partial",
   "theorems": [
    "Verif.Props.Calendar.C50_days_in_month_partial",
    "Verif.Props.Calendar.C50_any_month",
    "Verif.Props.Calendar.C50_negation"
   ],
   "note": "For years -292277022399..292277026600, the range of time.Time, and months 1..12; other months are counted on into the neighbouring years (C50_any_month). False for other years because time.Date wraps around (C50_negation)."
  },
  {
   "property": "C51",
   "status": "partial",
   "theorems": [
    "Verif.Props.Since.C51_bounds_partial",
    "Verif.Props.Since.C51_negation",
    "Verif.Props.Since.C51_gap_negation",
    "Verif.Props.Since.C51_leap_negation"
   ],
   "note": "For elapsed times below 2^53 s what is shown exceeds the time by at most 0.06% of the last unit shown; with full depth and no check for gaps it is within a minute if the years are neighbours, else short by at most the leap days. False in general: 3599 s is '1 hour' (C51_negation), gaps (C51_gap_negation) and years (C51_leap_negation) lose more than a minute."
  },
  {
   "property": "C52",
   "status": "proved",
   "theorems": [
    "Verif.Props.Since.C52_shape",
    "Verif.Props.Since.C52_descending"
   ],
   "note": "For every pair of times, every option of the package's API and every localizer."
  },
  {
   "property": "C53",
   "status": "partial",
   "theorems": [
    "Verif.Props.Numbers.C53_suffix_partial",
    "Verif.Props.Numbers.C53_integer_partial",
    "Verif.Props.Numbers.C53_integer_nearest",
    "Verif.Props.Numbers.C53_negative",
    "Verif.Props.Numbers.C53_no_panic_partial",
    "Verif.Props.Numbers.C53_panics_iff",
    "Verif.Props.Numbers.C53_panics_amd64",
    "Verif.Props.Numbers.C53_negation",
    "Verif.Props.Numbers.C53_largest_negation",
    "Verif.Props.Numbers.C53_rounding_negation"
   ],
   "note": "For every number below 2^63, of any type; negative numbers have no suffix; no panic if out-of-range conversions are non-negative. False in general: 1e19 panics on amd64 (C53_negation), integers above 2^53 are rounded (C53_rounding_negation). C53_panics_iff and C53_panics_amd64 say exactly which numbers panic."
  },
  {
   "property": "C54",
   "status": "partial",
   "theorems": [
    "Verif.Props.Numbers.C54_bytes",
    "Verif.Props.Numbers.C54_unit",
    "Verif.Props.Numbers.C54_integer",
    "Verif.Props.Numbers.C54_integer_nearest",
    "Verif.Props.Numbers.C54_minus_partial",
    "Verif.Props.Numbers.C54_minus_count",
    "Verif.Props.Numbers.C54_min",
    "Verif.Props.Numbers.C54_negation"
   ],
   "note": "Unit selection for every size, exact quotient below 2^53, minus sign for every count but the smallest int64, which is shown as --9223372036854775808 bytes (C54_min, C54_negation)."
  },
  {
   "property": "C55",
   "status": "partial",
   "theorems": [
    "Verif.Props.Natural.C55_past_partial",
    "Verif.Props.Natural.C55_negation",
    "Verif.Props.Natural.C55_zero_hours",
    "Verif.Props.Natural.C55_future",
    "Verif.Props.Natural.C55_days_ago",
    "Verif.Props.Natural.C55_days_ahead"
   ],
   "note": "Past times: exact except for the half second before the full hour, where the text is '0 hours ago' (C55_zero_hours, C55_negation); future times without exception; from a day on at least one unit of TimeSince."
  },
  {
   "property": "C56",
   "status": "partial",
   "theorems": [
    "Verif.Props.DateFormat.C56_copied",
    "Verif.Props.DateFormat.C56_unambiguous",
    "Verif.Props.DateFormat.C56_plain",
    "Verif.Props.DateFormat.C56_escaped",
    "Verif.Props.DateFormat.C56_invalid_negation",
    "Verif.Props.DateFormat.C56_panic_iff",
    "Verif.Props.DateFormat.C56_no_panic_partial",
    "Verif.Props.DateFormat.C56_negation",
    "Verif.Props.DateFormat.C56_localizer",
    "Verif.Props.DateFormat.C56_catalogs"
   ],
   "note": "What is copied, what is escaped and what is replaced is characterised for every UTF-8 format; the panic condition is exact. False: a format that is not UTF-8 is not copied (C56_invalid_negation), and an empty translation of a letter's text panics (C56_negation); with the catalogs of the library it cannot (C56_catalogs)."
  },
  {
   "property": "C57",
   "status": "partial",
   "theorems": [
    "Verif.Props.DateFormat.C57_denotes_iff",
    "Verif.Props.DateFormat.C57_denotes_partial",
    "Verif.Props.DateFormat.C57_negation",
    "Verif.Props.DateFormat.C57_six_negation"
   ],
   "note": "The text denotes the wall clock time iff the nanoseconds are 0 or have nine digits (C57_denotes_iff). False otherwise: 50 ms are printed as .50000000 (C57_negation), and six digits are never printed (C57_six_negation)."
  },
  {
   "property": "C58",
   "status": "partial",
   "theorems": [
    "Verif.Props.Numbers.C58_apnumber_partial",
    "Verif.Props.Numbers.C58_apnumber_nearest",
    "Verif.Props.Numbers.C58_apnumber_no_panic",
    "Verif.Props.Numbers.C58_apnumber_negation",
    "Verif.Props.Numbers.C58_intword_small",
    "Verif.Props.Numbers.C58_intword_partial",
    "Verif.Props.Numbers.C58_intword_negation"
   ],
   "note": "Apnumber for all integers below 2^53, no panic for any value; Intword for every float64 up to 10^36 except one. False for fractions (1.5 is 'one') and from 10^36 on (1e40 is '0.0 googol')."
  },
  {
   "property": "C59",
   "status": "proved",
   "theorems": [
    "Verif.Props.Cldr.C59_rule_text_meaning"
   ],
   "note": ""
  },
  {
   "property": "C60",
   "status": "partial",
   "theorems": [
    "Verif.Props.Cldr.C60_operands_of_decimal_partial",
    "Verif.Props.Cldr.C60_negation",
    "Verif.Props.CldrOperands.C60_accepted_iff",
    "Verif.Props.CldrOperands.C60_accepted_compact_iff",
    "Verif.Props.CldrOperands.C60_visible",
    "Verif.Props.CldrOperands.C60_visible_compact",
    "Verif.Props.CldrOperands.C60_must"
   ],
   "note": "False of the code for long fractions (C60_negation): exactly the decimals whose fraction exceeds an int64 are refused (C60_accepted_iff), in compact notation too. v, w, f, t and c are right whenever operands are returned (C60_visible); n and i are proved for the decimals of C34."
  },
  {
   "property": "C61",
   "status": "partial",
   "theorems": [
    "Verif.Props.Cldr.C61_parser_terminates_partial",
    "Verif.Props.Cldr.C61_sample_range_enumerated_partial",
    "Verif.Props.Cldr.C61_negation",
    "Verif.Props.Samples.C61_ranges",
    "Verif.Props.Samples.C61_range_iff",
    "Verif.Props.Samples.C61_returns"
   ],
   "note": "False of the code (C61_negation: @integer 5~3 hangs). A range ends exactly if it goes upwards with equal numbers of places (C61_range_iff); every text in which all ranges do is parsed in finitely many steps (C61_returns), and for rules of the grammar this is exact (C101_hangs_iff)."
  },
  {
   "property": "C62",
   "status": "partial",
   "theorems": [
    "Verif.Props.Gettext.C62_plural_rule_partial",
    "Verif.Props.Gettext.C62_negation"
   ],
   "note": "The rule actually used is proved for every language; the documented header fallback is false of the code (C62_negation)."
  },
  {
   "property": "C63",
   "status": "partial",
   "theorems": [
    "Verif.Props.Json.C63_rebuild_partial",
    "Verif.Props.Json.C63_negation",
    "Verif.Props.JsonRefill.C63_iff"
   ],
   "note": "Every catalog built once from a map (C63_rebuild_partial). For catalogs that are filled more than once it holds exactly if no key is that of messages in two contexts (C63_iff); C63_negation has a catalog for which it is false."
  },
  {
   "property": "C64",
   "status": "partial",
   "theorems": [
    "Verif.Props.Json.C64_catalog_round_trip_partial",
    "Verif.Props.Json.C64_negation",
    "Verif.Props.Json.C64_round_trip_iff"
   ],
   "note": "Exact for catalogs built from messages, all iteration orders: the lookups survive if and only if the catalog is not empty and its keys, contexts and the texts lookups may ask for are valid UTF-8 (C64_round_trip_iff). Otherwise false: C64_negation. Left out: catalogs that are filled more than once (see C63)."
  },
  {
   "property": "C65",
   "status": "partial",
   "theorems": [
    "Verif.Props.Json.C65_marshal_pure_partial",
    "Verif.Props.Json.C65_negation",
    "Verif.Props.Json.C65_marshal_pure_iff"
   ],
   "note": "False for an empty non-nil map (C65_negation), and only then (C65_marshal_pure_iff)."
  },
  {
   "property": "C66",
   "status": "partial",
   "theorems": [
    "Verif.Props.Json.C66_error_or_catalog_partial",
    "Verif.Props.Json.C66_negation",
    "Verif.Props.Json.C66_nothing_iff"
   ],
   "note": "False for the text null (C66_negation), and only then (C66_nothing_iff)."
  },
  {
   "property": "C67",
   "status": "proved",
   "theorems": [
    "Verif.Props.Localizer.C67_result",
    "Verif.Props.Localizer.C67_translated",
    "Verif.Props.Localizer.C67_original"
   ],
   "note": "Every error, with or without a message of its own, and every localizer, nil catalogs included."
  },
  {
   "property": "C68",
   "status": "proved",
   "theorems": [
    "Verif.Props.Bundle.C68_localizer",
    "Verif.Props.Bundle.C68_tags"
   ],
   "note": "The matcher is a parameter."
  },
  {
   "property": "C69",
   "status": "partial",
   "theorems": [
    "Verif.Props.Bundle.C69_languages",
    "Verif.Props.Bundle.C69_domains_partial",
    "Verif.Props.Bundle.C69_negation",
    "Verif.Props.Bundle.C69_domains"
   ],
   "note": "Domains: exact if no loader returns an ErrMissingLanguage (C69_negation). For all loaders, every domain with a catalog is listed once, and of the others at most those whose loader gave a catalog for a language that was asked for (C69_domains). Languages: proved."
  },
  {
   "property": "C70",
   "status": "proved",
   "theorems": [
    "Verif.Props.Localizer.C70_missing_key",
    "Verif.Props.Localizer.C70_known_key"
   ],
   "note": "For sane localizers (C43_localizer_sane)."
  },
  {
   "property": "C71",
   "status": "partial",
   "theorems": [
    "Verif.Props.PoHang.C71_hangs_iff",
    "Verif.Props.PoParser.C71_no_panic",
    "Verif.Props.PoParser.C71_negation",
    "Verif.Props.PoParser.C71_returns_partial"
   ],
   "note": "No panic on any input (C71_no_panic). Does not always return (C71_negation); C71_hangs_iff says exactly on which files it does not: lines that are read to their end, lines of one message, and a line with a text whose closing quote is escaped where this text is decoded. C71_returns_partial is the simple sufficient condition."
  },
  {
   "property": "C72",
   "status": "proved",
   "theorems": [
    "Verif.Props.Loader.C72_created",
    "Verif.Props.Loader.C72_load_no_panic"
   ],
   "note": "For all options, resolvers and decoders."
  },
  {
   "property": "C73",
   "status": "proved",
   "theorems": [
    "Verif.Props.Since.C73_not_past",
    "Verif.Props.Since.C73_until",
    "Verif.Props.Since.C73_same_span",
    "Verif.Props.Since.C73_since_from",
    "Verif.Props.Since.C73_until_from",
    "Verif.Props.Since.C73_until_span"
   ],
   "note": "For every pair of times less than 2^62 s apart whose wall clocks are within the range of time.Time and whose zones are less than a day off UTC. TimeUntil, TimeSinceFrom and TimeUntilFrom are related to TimeSince for any times and options."
  },
  {
   "property": "C74",
   "status": "partial",
   "theorems": [
    "Verif.Props.DateLetters.C74_calendar",
    "Verif.Props.DateLetters.C74_wall_clock",
    "Verif.Props.DateLetters.C74_day_month",
    "Verif.Props.DateLetters.C74_year_partial",
    "Verif.Props.DateLetters.C74_year_iff",
    "Verif.Props.DateLetters.C74_year_negation",
    "Verif.Props.DateLetters.C74_lengths",
    "Verif.Props.DateLetters.C74_suffix",
    "Verif.Props.DateLetters.C74_weekday",
    "Verif.Props.DateLetters.C74_month_names",
    "Verif.Props.DateLetters.C74_iso_week",
    "Verif.Props.DateLetters.C74_clock",
    "Verif.Props.DateLetters.C74_dial",
    "Verif.Props.DateLetters.C74_zone",
    "Verif.Props.DateLetters.C74_no_summer",
    "Verif.Props.DateLetters.C74_summer",
    "Verif.Props.DateLetters.C74_zone_names",
    "Verif.Props.DateLetters.C74_mail"
   ],
   "note": "All letters. C74_year_iff says exactly which years have four digits and two last digits; false for years before 0 (C74_year_negation)."
  },
  {
   "property": "C75",
   "status": "partial",
   "theorems": [
    "Verif.Props.NaturalDay.C75_fixed_partial",
    "Verif.Props.NaturalDay.C75_today",
    "Verif.Props.NaturalDay.C75_hours",
    "Verif.Props.NaturalDay.C75_negation"
   ],
   "note": "Today in every zone; all three words in zones with a fixed offset; in general by the hours between the midnights. False with summer time: the day after a change is not called tomorrow (C75_negation)."
  },
  {
   "property": "C76",
   "status": "proved",
   "theorems": [
    "Verif.Props.Collection.C76_keyword",
    "Verif.Props.Collection.C76_other",
    "Verif.Props.Collection.C76_defaults",
    "Verif.Props.Collection.C76_fallback",
    "Verif.Props.Collection.C76_idempotent",
    "Verif.Props.Collection.C76_panic_iff",
    "Verif.Props.Collection.C76_fails_iff",
    "Verif.Props.Collection.C76_languages",
    "Verif.Props.Collection.C76_formats"
   ],
   "note": "For every list of locales, decoder and iteration order; options that configure the bundle are not modelled."
  },
  {
   "property": "C77",
   "status": "proved",
   "theorems": [
    "Verif.Props.PoOrder.C77_sign",
    "Verif.Props.PoOrder.C77_references",
    "Verif.Props.PoOrder.C77_keys",
    "Verif.Props.PoOrder.C77_written"
   ],
   "note": "Proved of the model of DefaultSortFunction; the sorting algorithm is a parameter (Sorts)."
  },
  {
   "property": "C78",
   "status": "proved",
   "theorems": [
    "Verif.Props.EndToEnd.C78_standard",
    "Verif.Props.EndToEnd.C78_served",
    "Verif.Props.EndToEnd.C78_po",
    "Verif.Props.EndToEnd.C78_mo",
    "Verif.Props.EndToEnd.C78_written",
    "Verif.Props.EndToEnd.C78_json",
    "Verif.Props.EndToEnd.C78_json_written",
    "Verif.Props.EndToEnd.C78_json_saved"
   ],
   "note": "PO, MO and JSON files and files written by the encoders, for every bundle created with a loader that behaves as the modelled FilesystemLoader."
  },
  {
   "property": "C79",
   "status": "partial",
   "theorems": [
    "Verif.Props.Bundle.C79_no_failure_partial",
    "Verif.Props.Bundle.C79_supported",
    "Verif.Props.Bundle.C79_no_failure",
    "Verif.Props.Bundle.C79_negation",
    "Verif.Props.EndToEnd.C79_broken_file"
   ],
   "note": "Proved if no loader returns ErrMissingLanguage (C79_no_failure_partial, C79_broken_file). Without this restriction false: C79_negation; it then holds of all languages but those that a loader calls missing, and these are not in the bundle (C79_no_failure)."
  },
  {
   "property": "C80",
   "status": "partial",
   "theorems": [
    "Verif.Props.PoReread.C80_reread_partial",
    "Verif.Props.PoReread.C80_marshal_partial",
    "Verif.Props.PoReread.C80_comments",
    "Verif.Props.PoReread.C80_texts",
    "Verif.Props.PoReread.C80_negation",
    "Verif.Props.PoReread.C80_index_negation",
    "Verif.Props.PoReread.C80_control_negation",
    "Verif.Props.PoReread.C80_header_negation",
    "Verif.Props.PoReread.C80_message_negation"
   ],
   "note": "Every file read from valid UTF-8 whose parts all have a place in the output (HoldableFile); the output must have no line longer than the parser's buffer. Otherwise false: C80_negation, C80_index_negation, C80_control_negation, C80_header_negation, C80_message_negation."
  },
  {
   "property": "C81",
   "status": "partial",
   "theorems": [
    "Verif.Props.PoAgain.C81_stable_partial",
    "Verif.Props.PoAgain.C81_marshal_partial",
    "Verif.Props.PoAgain.C81_negation"
   ],
   "note": "Under the conditions of C80, with the default order, at most one unknown header field, and messages that have different first references or none. False with a backslash in a header value (C81_negation)."
  },
  {
   "property": "C82",
   "status": "partial",
   "theorems": [
    "Verif.Props.Reports.C82_domain_present",
    "Verif.Props.Reports.C82_domain_absent",
    "Verif.Props.Reports.C82_domain_list",
    "Verif.Props.Reports.C82_has_locale",
    "Verif.Props.Reports.C82_localizer",
    "Verif.Props.Reports.C82_supported",
    "Verif.Props.Reports.C82_key_localizer",
    "Verif.Props.Reports.C82_languages_partial",
    "Verif.Props.Reports.C82_can_localize_partial",
    "Verif.Props.Reports.C82_listed_partial",
    "Verif.Props.Reports.C82_negation",
    "Verif.Props.Reports.C82_languages",
    "Verif.Props.Reports.C82_listed",
    "Verif.Props.Reports.C82_can_localize"
   ],
   "note": "Full for domains and locales of localizers. SupportedLanguages also lists the source language, which has no catalog, and CanLocalize is misled by a loader with ErrMissingLanguage: C82_negation; the _partial theorems exclude these two cases. In general: the listed languages are those with a catalog and the source language (C82_languages), what a localizer has is listed (C82_listed), and CanLocalize is wrong only for a bundle that has no language but the source language (C82_can_localize)."
  },
  {
   "property": "C83",
   "status": "partial",
   "theorems": [
    "Verif.Props.Placeholder.C83_placeholder_partial",
    "Verif.Props.Placeholder.C83_empty_file_partial",
    "Verif.Props.Placeholder.C83_negation"
   ],
   "note": "Names that are one trimmed line without quotes and backslashes, a copyright holder, no wrapping. Otherwise false: C83_negation."
  },
  {
   "property": "C84",
   "status": "partial",
   "theorems": [
    "Verif.Props.Json.C84_round_trip_iff",
    "Verif.Props.JsonText.C84_message_text",
    "Verif.Props.JsonText.C84_written",
    "Verif.Props.JsonText.C84_read",
    "Verif.Props.JsonText.C84_reader",
    "Verif.Props.JsonText.C84_decode",
    "Verif.Props.JsonText.C84_quote",
    "Verif.Props.JsonText.C84_writable",
    "Verif.Props.JsonText.C84_utf8",
    "Verif.Props.JsonText.C84_round_trip_partial",
    "Verif.Props.JsonText.C84_negation"
   ],
   "note": "Text, layout and reading are full; the round trip of files holds for exactly the catalogs of C64_round_trip_iff (C84_round_trip_iff). Otherwise false: C84_negation. encoding/json is restated in the model."
  },
  {
   "property": "C85",
   "status": "proved",
   "theorems": [
    "Verif.Props.JsonSave.C85_save",
    "Verif.Props.JsonSave.C85_negation"
   ],
   "note": "Full for every accepted file. That the first saving keeps all texts of the file is false: C85_negation."
  },
  {
   "property": "C86",
   "status": "proved",
   "theorems": [
    "Verif.Props.PoState.C86_reuse",
    "Verif.Props.PoState.C86_settings"
   ],
   "note": "Full, on a model with every field of parser and scanner; refinement of the token-list model used elsewhere."
  },
  {
   "property": "C87",
   "status": "partial",
   "theorems": [
    "Verif.Props.PoState.C87_line_partial",
    "Verif.Props.PoState.C87_negation",
    "Verif.Props.PoState.C87_entry_line"
   ],
   "note": "Proved for the errors about a line and about the index of a plural translation. False for duplicates and second headers (C87_negation): C87_entry_line says for every such file that the line shown is behind the entry and not needed for the error, or that the end of the file has been reached (number of the last line, empty text)."
  },
  {
   "property": "C88",
   "status": "partial",
   "theorems": [
    "Verif.Props.Generator.C88_generated_condition_partial",
    "Verif.Props.Generator.C88_negation",
    "Verif.Props.GeneratorScope.C88_compiles_iff"
   ],
   "note": "For rules in which an operand other than n has at most one range per relation; the condition compiles exactly for these (C88_compiles_iff), otherwise it calls a function that does not exist (C88_negation). Go is a specification of the part of the language that is needed (Spec/GoCode.lean)."
  },
  {
   "property": "C89",
   "status": "partial",
   "theorems": [
    "Verif.Props.Generator.C89_generated_function_partial",
    "Verif.Props.Generator.C89_negation",
    "Verif.Props.Generator.C89_syntax_negation"
   ],
   "note": "For formulas of the usual shape (comparisons joined by && and ||; c1 ? k1 : c2 ? k2 : ... : k). Otherwise false: parentheses after % are lost (C89_negation), other shapes give text that does not compile (C89_syntax_negation)."
  },
  {
   "property": "C90",
   "status": "partial",
   "theorems": [
    "Verif.Props.Generator.C90_generated_file_conditions_partial",
    "Verif.Props.Generator.C90_all_languages",
    "Verif.Props.Generator.C90_model_is_the_file",
    "Verif.Props.Generator.C90_model_complete",
    "Verif.Props.Generator.C90_negation"
   ],
   "note": "Decimals as in C34. False for 1.0000001 (C90_negation). That the model of each function is the text of the file is full, for all operands."
  },
  {
   "property": "C91",
   "status": "proved",
   "theorems": [
    "Verif.Props.Generator.C91_generated_file_functions",
    "Verif.Props.Generator.C91_all_rules"
   ],
   "note": "Full, for every function of the file and every int64."
  },
  {
   "property": "C92",
   "status": "partial",
   "theorems": [
    "Verif.Props.Locales.C92_shipped_formats_partial",
    "Verif.Props.Locales.C92_served",
    "Verif.Props.Locales.C92_vietnamese_negation",
    "Verif.Props.Locales.C92_hindi_negation",
    "Verif.Props.Locales.C92_hindi_dates_negation",
    "Verif.Props.Locales.C92_armenian_negation"
   ],
   "note": "All locales and formats but six, for which it is false (C92_*_negation: Vietnamese date and time has no hour; Hindi has one word for both halves of the day; Armenian abbreviates March and April alike). Years 0 to 9999."
  },
  {
   "property": "C93",
   "status": "partial",
   "theorems": [
    "Verif.Props.Locales.C93_own_language_partial",
    "Verif.Props.Locales.C93_negation",
    "Verif.Props.Locales.C93_collection_partial",
    "Verif.Props.Locales.C93_collection_negation"
   ],
   "note": "All packages but Lithuanian, which registers Latvian (C93_negation, C93_collection_negation)."
  },
  {
   "property": "C94",
   "status": "partial",
   "theorems": [
    "Verif.Props.Locales.C94_rules",
    "Verif.Props.Locales.C94_complete_partial",
    "Verif.Props.Locales.C94_negation",
    "Verif.Props.Locales.C94_hebrew_file_negation"
   ],
   "note": "The rules: full (C94_rules). The forms: all locales but Hebrew, where messages lack the last form (C94_negation, C94_hebrew_file_negation). Which forms have a text is a transcription of the files."
  },
  {
   "property": "C95",
   "status": "partial",
   "theorems": [
    "Verif.Props.Formats.C95_same_partial",
    "Verif.Props.Formats.C95_header_negation",
    "Verif.Props.Formats.C95_context_negation"
   ],
   "note": "For plain entries separated by blank lines. False when the header has a line that is no field (C95_header_negation) and for messages with a context and an empty id (C95_context_negation)."
  },
  {
   "property": "C96",
   "status": "partial",
   "theorems": [
    "Verif.Props.GenData.C96_own_rules",
    "Verif.Props.GenData.C96_data",
    "Verif.Props.GenData.C96_data_determines",
    "Verif.Props.GenData.C96_names",
    "Verif.Props.GenData.C96_order_free",
    "Verif.Props.GenData.C96_statements",
    "Verif.Props.GenData.C96_switch",
    "Verif.Props.GenData.C96_category_partial",
    "Verif.Props.GenData.C96_language_partial",
    "Verif.Props.GenData.C96_negation"
   ],
   "note": "SHA-256 is assumed to tell the rules of the table apart (Distinguished); the templates, unicode.ToUpper and language.MustParse are parameters. The category for rules as in C88. In general false: the texts are hashed without separators, so that the same text for one and for two counts as the same rules (C96_negation)."
  },
  {
   "property": "C97",
   "status": "partial",
   "theorems": [
    "Verif.Props.GenFormulas.C97_own_rules",
    "Verif.Props.GenFormulas.C97_extra_rules",
    "Verif.Props.GenFormulas.C97_names",
    "Verif.Props.GenFormulas.C97_order_free",
    "Verif.Props.GenFormulas.C97_switch",
    "Verif.Props.GenFormulas.C97_raw_switch",
    "Verif.Props.GenFormulas.C97_function_partial",
    "Verif.Props.GenFormulas.C97_negation",
    "Verif.Props.GenFormulas.C97_duplicate_negation"
   ],
   "note": "For tables in which the same formula has the same number of plurals; otherwise false (C97_negation). The value for formulas of the usual shape (C89). Formulas that differ in spaces only give a file with a duplicate case, which does not compile (C97_duplicate_negation)."
  },
  {
   "property": "C98",
   "status": "partial",
   "theorems": [
    "Verif.Props.Counts.C98_plural_partial",
    "Verif.Props.Counts.C98_single_partial",
    "Verif.Props.Counts.C98_ordinal_partial",
    "Verif.Props.Counts.C98_serbian_negation",
    "Verif.Props.Counts.C98_belarusian_negation",
    "Verif.Props.Counts.C98_albanian_negation",
    "Verif.Props.Counts.C98_marathi_negation"
   ],
   "note": "All locales and messages but: Serbian in Latin script (natural times), Belarusian (one billion), Albanian (ordinals), Marathi (ordinals that end in 9), which are shown to fail. Sprintf of golang.org/x/text is modelled for directives without flags, from its documentation; that the localizer serves the catalog is the hypothesis Answers, which C100 derives from the file; untranslated texts are written as in English, the others as in the language of the locale. Numbers up to 2^53."
  },
  {
   "property": "C99",
   "status": "partial",
   "theorems": [
    "Verif.Props.Names.C99_same_name_iff",
    "Verif.Props.Names.C99_distinct_partial",
    "Verif.Props.Names.C99_negation",
    "Verif.Props.Names.C99_codes",
    "Verif.Props.Names.C99_shipped",
    "Verif.Props.Names.C99_tag_negation",
    "Verif.Props.Names.C99_norwegian_negation"
   ],
   "note": "Which names coincide is stated exactly (C99_same_name_iff): none in 89 locales (C99_distinct_partial), some in eight (C99_negation). The names are a transcription; that the localizer serves them is the hypothesis ServesNames, which C100 derives from the file. The codes must be in small letters, so tags with a region as the library writes them have no name (C99_tag_negation); the names of Norwegian are not translated anywhere (C99_norwegian_negation)."
  },
  {
   "property": "C100",
   "status": "proved",
   "theorems": [
    "Verif.Props.Humanizer.C100_says",
    "Verif.Props.Humanizer.C100_english",
    "Verif.Props.Humanizer.C100_created",
    "Verif.Props.Humanizer.C100_answers",
    "Verif.Props.Humanizer.C100_names",
    "Verif.Props.Humanizer.C100_dates",
    "Verif.Props.Humanizer.C100_numbers",
    "Verif.Props.Humanizer.C100_checked"
   ],
   "note": "From the bytes of django.po to the texts of the humanizer (C100_says, C100_english, C100_created), and that a file with the transcribed texts gives humanizers that meet the hypotheses of C92, C98 and C99 (C100_checked). The check contentB is proved for the file of Kabyle (kab_content, kab_humanizer). The language matcher and Sprintf are parameters; numbers above 2^53 are rounded (C32_negation)."
  },
  {
   "property": "C101",
   "status": "proved",
   "theorems": [
    "Verif.Props.Samples.C101_read",
    "Verif.Props.Samples.C101_other",
    "Verif.Props.Samples.C101_hangs_iff"
   ],
   "note": "Conditions and samples of the UTS 35 grammar as the standard writes them; numbers with sign are not read by the code and not in the specification."
  },
  {
   "property": "C102",
   "status": "partial",
   "theorems": [
    "Verif.Props.ErrorText.C102_unambiguous",
    "Verif.Props.ErrorText.C102_printable_partial",
    "Verif.Props.ErrorText.C102_no_file_printable",
    "Verif.Props.ErrorText.C102_printable_negation",
    "Verif.Props.ErrorText.C102_printable_iff",
    "Verif.Props.ErrorText.C102_gettext",
    "Verif.Props.ErrorText.C102_context_negation",
    "Verif.Props.ErrorText.C102_json",
    "Verif.Props.ErrorText.C102_json_id_negation",
    "Verif.Props.ErrorText.C102_shown"
   ],
   "note": "Equal texts give equal errors (C102_unambiguous), and single lines except for the raw identifier of ErrNotFound (C102_printable_partial, C102_printable_negation); C102_printable_iff: a single line exactly if this identifier is printable. A lookup in a context that the catalog does not have does not name the id (C102_context_negation); the JSON catalog names the key with the suffix _context instead of the id (C102_json_id_negation). Language tags are given by their text; strconv.IsPrint is a parameter."
  },
  {
   "property": "C103",
   "status": "partial",
   "theorems": [
    "Verif.Props.References.C103_read_partial",
    "Verif.Props.References.C103_read_iff",
    "Verif.Props.References.C103_file_partial",
    "Verif.Props.References.C103_windows_negation",
    "Verif.Props.References.C103_blank_negation",
    "Verif.Props.References.C103_two_blanks_negation",
    "Verif.Props.References.C103_equal",
    "Verif.Props.References.C103_string_partial",
    "Verif.Props.References.C103_string_negation",
    "Verif.Props.References.C103_string_read_negation",
    "Verif.Props.References.C103_string_read_iff",
    "Verif.Props.References.C103_string_iff",
    "Verif.Props.References.C103_read_all_iff",
    "Verif.Props.References.C103_file"
   ],
   "note": "Proved for paths without white space and colon, for a line (C103_read_partial) and for the message in a file (C103_file_partial). For arbitrary paths, C103_read_all_iff says exactly which lines of references are read right: no blank in a path, no white space at the ends of a reference, no colon in a path except a leading one without a line; C103_read_iff is the case of paths without white space, C103_file has the same conditions for the message in a file. False otherwise: a path with a colon is cut there and its line is lost (C103_windows_negation), a path with blanks becomes several references, also between U+2068 and U+2069 as gettext writes it (C103_blank_negation), two blanks give an empty reference (C103_two_blanks_negation). Equal is equality (C103_equal). String tells references with a line apart (C103_string_partial, C103_string_negation); C103_string_iff says exactly which have the same text. The parser loses the line of what String prints (C103_string_read_negation); C103_string_read_iff says exactly what is read back."
  },
  {
   "property": "C104",
   "status": "partial",
   "theorems": [
    "Verif.Props.Isolation.C104_lookup",
    "Verif.Props.Isolation.C104_isolated",
    "Verif.Props.Isolation.C104_new",
    "Verif.Props.Isolation.C104_read",
    "Verif.Props.Isolation.C104_fill_partial",
    "Verif.Props.Isolation.C104_failed_fill_negation"
   ],
   "note": "Proved for every program over a heap with pointers (Spec/Program.lean): C104_isolated, C104_new, C104_read, C104_lookup, C104_fill_partial. False for UnmarshalJSON with an error: what was set before the error stays in the catalog (C104_failed_fill_negation). Data races are not modelled; operations are atomic."
  },
  {
   "property": "C105",
   "status": "proved",
   "theorems": [
    "Verif.Props.Categories.C105_apply",
    "Verif.Props.Categories.C105_nil",
    "Verif.Props.Categories.C105_again",
    "Verif.Props.Categories.C105_catalog"
   ],
   "note": "Keys that are no category stay as they are."
  },
  {
   "property": "C106",
   "status": "proved",
   "theorems": [
    "Verif.Props.PoMemory.C106_pointer",
    "Verif.Props.PoMemory.C106_values",
    "Verif.Props.PoMemory.C106_merged",
    "Verif.Props.PoMemory.C106_unchanged",
    "Verif.Props.PoMemory.C106_other_file",
    "Verif.Props.PoMemory.C106_two_files_negation",
    "Verif.Props.PoMemory.C106_caller_negation"
   ],
   "note": "Heap with slices and arrays (Verif/Go/Slice.lean, Model/Po/Memory.lean). False for messages that share memory: a message in two files is changed through either (C106_two_files_negation), and the caller's first message is changed by later calls (C106_caller_negation). Nil messages are left out; operations are atomic."
  },
  {
   "property": "C107",
   "status": "proved",
   "theorems": [
    "Verif.Props.PoMemory.C107_value",
    "Verif.Props.PoMemory.C107_unchanged",
    "Verif.Props.PoMemory.C107_history",
    "Verif.Props.PoMemory.C107_copy_negation",
    "Verif.Props.PoMemory.C107_overlap_negation"
   ],
   "note": "False for a copy of a comment, which shares its arrays (C107_copy_negation), and for a merge of comments that share a part of their references (C107_overlap_negation); both excluded by CmtApart."
  },
  {
   "property": "C108",
   "status": "proved",
   "theorems": [
    "Verif.Props.Creation.C108_created_iff",
    "Verif.Props.Creation.C108_languages",
    "Verif.Props.Creation.C108_supported",
    "Verif.Props.Creation.C108_fallback"
   ],
   "note": "Exact (C108_created_iff), in both directions, for loaders that do not return ErrMissingLanguage, as the file system loader never does; with such loaders the outcome depends on the map order (C44_negation)."
  },
  {
   "property": "C109",
   "status": "proved",
   "theorems": [
    "Verif.Props.Creation.C109_order",
    "Verif.Props.Creation.C109_required_negation",
    "Verif.Props.Creation.C109_source_negation"
   ],
   "note": "False without the conditions: C109_required_negation, C109_source_negation. The order of the languages given to the matcher follows the options (C108_languages)."
  },
  {
   "property": "C110",
   "status": "proved",
   "theorems": [
    "Verif.Props.Shared.C110_unchanged",
    "Verif.Props.Shared.C110_kept",
    "Verif.Props.Shared.C110_kept_localizer",
    "Verif.Props.Shared.C110_negation"
   ],
   "note": "The slices of a bundle are slices of a memory (Model/Spreak/Shared.lean); locales and catalogs are values here. C110_negation: a printer that keeps its argument can exchange a language."
  },
  {
   "property": "C111",
   "status": "proved",
   "theorems": [
    "Verif.Props.PoSaving.C111_order",
    "Verif.Props.PoSaving.C111_pointers",
    "Verif.Props.PoSaving.C111_messages",
    "Verif.Props.PoSaving.C111_unchanged",
    "Verif.Props.PoSaving.C111_found",
    "Verif.Props.PoSaving.C111_again",
    "Verif.Props.PoSaving.C111_order_again",
    "Verif.Props.PoSaving.C111_owned",
    "Verif.Props.PoSaving.C111_write",
    "Verif.Props.PoSaving.C111_negation",
    "Verif.Props.PoSaving.C111_single_negation"
   ],
   "note": "Heap of C106. C111_negation: Encode is not read-only. C111_single_negation: the comment of a message that is compared with no other is written unsorted."
  },
  {
   "property": "C112",
   "status": "proved",
   "theorems": [
    "Verif.Props.Printers.C112_default",
    "Verif.Props.Printers.C112_function",
    "Verif.Props.Printers.C112_bundle",
    "Verif.Props.Printers.C112_plain",
    "Verif.Props.Printers.C112_options"
   ],
   "note": "message.NewPrinter(lang).Sprintf is an arbitrary function of language, text and values. Printers that return a nil function are not modelled."
  },
  {
   "property": "C113",
   "status": "proved",
   "theorems": [
    "Verif.Props.PoLines.C113_lines",
    "Verif.Props.PoLines.C113_text",
    "Verif.Props.PoLines.C113_width",
    "Verif.Props.PoLines.C113_breaks",
    "Verif.Props.PoLines.C113_no_width",
    "Verif.Props.PoLines.C113_last_word_unchecked"
   ],
   "note": "Exact: C113_lines gives the output for every text and width; C113_width, C113_breaks and C113_text say what that output is like. Lengths are characters of the text, without quotes and escapes. C113_last_word_unchecked: the width is not a bound. Found missing by a wrong program (breakIfFull 20 characters too late) that no theorem excluded."
  },
  {
   "property": "C114",
   "status": "proved",
   "theorems": [
    "Verif.Props.CommentLines.C114_lines",
    "Verif.Props.CommentLines.C114_bytes",
    "Verif.Props.CommentLines.C114_again",
    "Verif.Props.CommentLines.C114_again_negation"
   ],
   "note": "Exact: C114_lines gives the lines of every comment and width. C114_again_negation: with blanks at the beginning of a paragraph, wrapping again can lose blanks."
  },
  {
   "property": "C115",
   "status": "proved",
   "theorems": [
    "Verif.Props.Examples.C115_ok_iff",
    "Verif.Props.Examples.C115_result",
    "Verif.Props.Examples.C115_order",
    "Verif.Props.Examples.C115_range",
    "Verif.Props.Examples.C115_negation",
    "Verif.Props.Examples.C115_forever_negation"
   ],
   "note": "Exact: C115_ok_iff and C115_result. C115_negation: omission points without exactly one blank before them are taken for an example. C115_forever_negation: a range up to the greatest int does not end."
  },
  {
   "property": "C116",
   "status": "partial",
   "theorems": [
    "Verif.Props.Previous.C116_previous",
    "Verif.Props.Previous.C116_right_iff",
    "Verif.Props.Previous.C116_kept_partial",
    "Verif.Props.Previous.C116_negation"
   ],
   "note": "False of the code: the previous plural is added to the previous ID. C116_previous says exactly what is read from any list of comment lines and previous texts, and C116_right_iff that the previous ID is right exactly if every previous plural is empty."
  },
  {
   "property": "C117",
   "status": "partial",
   "theorems": [
    "Verif.Props.Readers.C117_pieces_partial",
    "Verif.Props.Readers.C117_decode",
    "Verif.Props.Readers.C117_failing",
    "Verif.Props.Readers.C117_failing_decode",
    "Verif.Props.Readers.C117_prefix",
    "Verif.Props.Readers.C117_negation",
    "Verif.Props.Readers.C117_stall_negation"
   ],
   "note": "False of the code for readers that fail: the parser takes every error as the end of the file. C117_failing says exactly what is then read: the complete lines up to the failure. A final line of exactly 65536 bytes that comes together with io.EOF is accepted, in memory it is not; C117_pieces_partial asks for shorter lines in that case."
  },
  {
   "property": "C118",
   "status": "partial",
   "theorems": [
    "Verif.Props.MoReaders.C118_filling_partial",
    "Verif.Props.MoReaders.C118_accepted_iff",
    "Verif.Props.MoReaders.C118_short_reads",
    "Verif.Props.MoReaders.C118_failures",
    "Verif.Props.MoReaders.C118_decode",
    "Verif.Props.MoReaders.C118_pieces",
    "Verif.Props.MoReaders.C118_negation",
    "Verif.Props.MoReaders.C118_empty_negation"
   ],
   "note": "False of the code for an io.ReadSeeker that delivers fewer bytes than asked for: the count is ignored for ids and texts, which are then completed with zeros (C118_short_reads, C118_negation). Proved for readers that fill the buffer, for readers without Seek, and for failing calls. No error comes with bytes; os.File reports no error for an empty text at the end of the file, bytes.Reader does."
  },
  {
   "property": "C119",
   "status": "partial",
   "theorems": [
    "Verif.Props.TimeArgs.C119_accepted_partial",
    "Verif.Props.TimeArgs.C119_documented",
    "Verif.Props.TimeArgs.C119_integer_nearest",
    "Verif.Props.TimeArgs.C119_rejected",
    "Verif.Props.TimeArgs.C119_error_text",
    "Verif.Props.TimeArgs.C119_rounding_negation",
    "Verif.Props.TimeArgs.C119_nil_pointer_negation",
    "Verif.Props.TimeArgs.C119_from_negation",
    "Verif.Props.TimeArgs.C119_now"
   ],
   "note": "Proved for times, durations, pointers and all numbers within int64. False for integers that a float64 does not hold (taken for a nearest one, C119_integer_nearest) and for nil pointers, which are taken for the start of 1970. TimeSinceFrom and TimeUntilFrom count a duration from the clock, not from the given time (C119_from_negation). Numbers outside of int64 are converted as the platform likes."
  },
  {
   "property": "C120",
   "status": "partial",
   "theorems": [
    "Verif.Props.PoHeader.C120_header",
    "Verif.Props.PoHeader.C120_always",
    "Verif.Props.PoHeader.C120_nothing_lost",
    "Verif.Props.PoHeader.C120_escape_negation"
   ],
   "note": "The text is exact for every header. That a value is read back is false: values are written without escapes (C120_escape_negation); for plain values it is part of C80."
  },
  {
   "property": "C121",
   "status": "partial",
   "theorems": [
    "Verif.Props.CldrRules.C121_accepted_iff",
    "Verif.Props.CldrRules.C121_meaning",
    "Verif.Props.CldrRules.C121_one_meaning",
    "Verif.Props.CldrRules.C121_rejected_iff",
    "Verif.Props.CldrRules.C121_first_word",
    "Verif.Props.CldrRules.C121_second_word",
    "Verif.Props.CldrRules.C121_documented_rejected",
    "Verif.Props.CldrRules.C121_documented_negation",
    "Verif.Props.CldrRules.C121_zero_range_negation",
    "Verif.Props.CldrRules.C121_rules_iff",
    "Verif.Props.CldrRules.C121_must"
   ],
   "note": "The accepted texts are described exactly. The last sentence of the property is false: the grammar in the comment of the parser is not the implemented one (C121_documented_rejected, C121_documented_negation, C121_zero_range_negation)."
  },
  {
   "property": "C122",
   "status": "proved",
   "theorems": [
    "Verif.Props.SharedPlurals.C122_same_language",
    "Verif.Props.SharedPlurals.C122_same_form_iff",
    "Verif.Props.SharedPlurals.C122_every_language",
    "Verif.Props.SharedPlurals.C122_underscore",
    "Verif.Props.SharedPlurals.C122_only_cldr",
    "Verif.Props.SharedPlurals.C122_for_language",
    "Verif.Props.SharedPlurals.C122_large_negation",
    "Verif.Props.SharedPlurals.C122_position_negation"
   ],
   "note": "All languages of the table of poplural, by name and by tag. Three names of the CLDR table (jw, mo, und) have no gettext rule (C122_only_cldr). False for counts above 2^53 (C122_large_negation) and for the position among all categories, which the CLDR option of the PO decoder uses (C122_position_negation)."
  },
  {
   "property": "C123",
   "status": "partial",
   "theorems": [
    "Verif.Props.PoPluralText.C123_accepted_iff",
    "Verif.Props.PoPluralText.C123_same",
    "Verif.Props.PoPluralText.C123_plain_iff",
    "Verif.Props.PoPluralText.C123_formulas_partial",
    "Verif.Props.PoPluralText.C123_must",
    "Verif.Props.PoPluralText.C123_junk",
    "Verif.Props.PoPluralText.C123_underscore",
    "Verif.Props.PoPluralText.C123_negation"
   ],
   "note": "The accepted texts are described exactly for all texts (C123_accepted_iff, C123_same). The property itself is false: text behind a NUL character is not read (C123_junk), a numeral with underscores counts as zero (C123_underscore, C123_negation). It holds for the texts without these characters (C123_formulas_partial)."
  },
  {
   "property": "C124",
   "status": "proved",
   "theorems": [
    "Verif.Props.Walk.C124_calls",
    "Verif.Props.Walk.C124_failure",
    "Verif.Props.Walk.C124_visited",
    "Verif.Props.Walk.C124_conditions",
    "Verif.Props.Walk.C124_parsed",
    "Verif.Props.Walk.C124_evaluation",
    "Verif.Props.Walk.C124_generator"
   ],
   "note": "Full for Walk with any visitors (C124_calls, C124_failure). C124_visited is for trees without missing nodes, which are all trees of the parser (C124_parsed, C124_conditions). C124_evaluation and C124_generator tie the short forms of the model to the code with Inspect. Nil pointers inside interfaces are not modelled."
  }
 ]
}