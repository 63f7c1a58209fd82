{
 "claims": [
  {
   "property": "C01",
   "status": "proved",
   "theorems": [
    "Pica.Props.C01_decode_encode"
   ],
   "note": ""
  },
  {
   "property": "C02",
   "status": "proved",
   "theorems": [
    "Pica.Props.C02_code",
    "Pica.Props.C02_value",
    "Pica.Props.C02_subfield",
    "Pica.Props.C02_field",
    "Pica.Props.C02_constructors",
    "Pica.Props.C02_encode_decode",
    "Pica.Props.C02_encode_decode_valid",
    "Pica.Props.C02_encode_injective",
    "Pica.Props.C02_empty_record"
   ],
   "note": ""
  },
  {
   "property": "C03",
   "status": "proved",
   "theorems": [
    "Pica.Props.C03_accepts_grammar",
    "Pica.Props.C03_rejects_rest",
    "Pica.Props.C03_parts"
   ],
   "note": ""
  },
  {
   "property": "C04",
   "status": "proved",
   "theorems": [
    "Pica.Props.C04_joined",
    "Pica.Props.C04_parts",
    "Pica.Props.C04_one_item_per_line",
    "Pica.Props.C04_lines_unique",
    "Pica.Props.C04_unterminated"
   ],
   "note": ""
  },
  {
   "property": "C05",
   "status": "partial",
   "theorems": [
    "Pica.Props.C05_readback_partial",
    "Pica.Props.C05_readback_iff",
    "Pica.Props.C05_readback_false"
   ],
   "note": "False as stated: SubfieldValueRef::new accepts values with a newline, and a record with such a value is cut in two when it is read (C05_readback_false). C05_readback_iff gives the exact condition: read back iff no value contains 0x0A."
  },
  {
   "property": "C06",
   "status": "partial",
   "theorems": [
    "Pica.Props.C06_byte_line_number",
    "Pica.Props.C06_string_line_number_false",
    "Pica.Props.C06_string_line_number_partial"
   ],
   "note": "Proved for next_byte_record. For next_string_record an invalid UTF-8 error carries the number minus one (C06_string_line_number_false); the partial theorem states the exact numbers."
  },
  {
   "property": "C07",
   "status": "proved",
   "theorems": [
    "Pica.Props.C07_skip_invalid",
    "Pica.Props.C07_skip_invalid_records",
    "Pica.Props.C07_independent",
    "Pica.Props.C07_strict",
    "Pica.Props.C07_string"
   ],
   "note": ""
  },
  {
   "property": "C08",
   "status": "proved",
   "theorems": [
    "Pica.Props.C08_string_record_iff_utf8",
    "Pica.Props.C08_values_utf8",
    "Pica.Props.C08_path",
    "Pica.Props.C08_format",
    "Pica.Props.C08_query"
   ],
   "note": "C08_path, C08_format and C08_query say what access to a string record yields; C08_format and C08_query assume that case mapping and trim map texts to texts (TextEnv), as Rust's str functions do by their types."
  },
  {
   "property": "C09",
   "status": "proved",
   "theorems": [
    "Pica.Props.C09_level_total",
    "Pica.Props.C09_level_of_decoded"
   ],
   "note": ""
  },
  {
   "property": "C10",
   "status": "proved",
   "theorems": [
    "Pica.Props.C10_keep",
    "Pica.Props.C10_discard",
    "Pica.Props.C10_empty_preds",
    "Pica.Props.C10_partition",
    "Pica.Props.C10_idempotent",
    "Pica.Props.C10_commute",
    "Pica.Props.C10_written_bytes",
    "Pica.Props.C10_written_decodes"
   ],
   "note": ""
  },
  {
   "property": "C11",
   "status": "proved",
   "theorems": [
    "Pica.Props.C11_eq_iff",
    "Pica.Props.C11_hash_sha",
    "Pica.Props.C11_sha_injective",
    "Pica.Props.C11_equivalence",
    "Pica.Props.C11_deref_mut_false"
   ],
   "note": "C11_deref_mut_false shows that the restriction to the listed operations is needed: mutation through DerefMut breaks it."
  },
  {
   "property": "C12",
   "status": "proved",
   "theorems": [
    "Pica.Props.C12_pattern_sound",
    "Pica.Props.C12_pattern_complete",
    "Pica.Props.C12_literal"
   ],
   "note": ""
  },
  {
   "property": "C13",
   "status": "partial",
   "theorems": [
    "Pica.Props.C13_range_exact",
    "Pica.Props.C13_frac_same",
    "Pica.Props.C13_accepts",
    "Pica.Props.C13_selector_partial",
    "Pica.Props.C13_no_selector",
    "Pica.Props.C13_any",
    "Pica.Props.C13_exact",
    "Pica.Props.C13_range_false"
   ],
   "note": "Ranges compare text, not numbers: /01-10 matches 099 and not 001 (C13_range_false). The partial theorem covers occurrences as wide as the bounds."
  },
  {
   "property": "C14",
   "status": "proved",
   "theorems": [
    "Pica.Props.C14_sub",
    "Pica.Props.C14_sub_panic",
    "Pica.Props.C14_record",
    "Pica.Props.C14_field_panic"
   ],
   "note": ""
  },
  {
   "property": "C15",
   "status": "proved",
   "theorems": [
    "Pica.Props.C15_calls",
    "Pica.Props.C15_builder",
    "Pica.Props.C15_error"
   ],
   "note": ""
  },
  {
   "property": "C16",
   "status": "partial",
   "theorems": [
    "Pica.Props.C16_sub_partial",
    "Pica.Props.C16_sub_reject",
    "Pica.Props.C16_sub_sound",
    "Pica.Props.C16_field_partial",
    "Pica.Props.C16_field_reject",
    "Pica.Props.C16_field_sound",
    "Pica.Props.C16_false",
    "Pica.Props.C16_sub_unique",
    "Pica.Props.C16_field_unique"
   ],
   "note": "False as stated: a? && b? ^ c? || d? is rejected (C16_false). C16_*_partial: every sequence without such an operand is accepted with the documented precedence, with every kind of simple matcher (existence, relations, contains, in, regular expressions, cardinalities, quantifiers, braces, negation) as operand; C16_*_reject: the others are rejected; C16_*_sound: any accepted text, of whatever form, has the documented meaning. C16_*_unique: the grammar is unambiguous, no text has two meanings."
  },
  {
   "property": "C17",
   "status": "proved",
   "theorems": [
    "Pica.Props.C17_relation",
    "Pica.Props.C17_lists",
    "Pica.Props.C17_regex",
    "Pica.Props.C17_regex_set",
    "Pica.Props.C17_vacuous",
    "Pica.Props.C17_dual",
    "Pica.Props.C17_dual_in",
    "Pica.Props.C17_field",
    "Pica.Props.C17_field_dual"
   ],
   "note": ""
  },
  {
   "property": "C18",
   "status": "proved",
   "theorems": [
    "Pica.Props.C18_subfields",
    "Pica.Props.C18_fields",
    "Pica.Props.C18_trichotomy",
    "Pica.Props.C18_trichotomy_fields",
    "Pica.Props.C18_parsed",
    "Pica.Props.C18_parsed_fields"
   ],
   "note": ""
  },
  {
   "property": "C19",
   "status": "partial",
   "theorems": [
    "Pica.Props.C19_in_exact",
    "Pica.Props.C19_contains",
    "Pica.Props.C19_in_partial",
    "Pica.Props.C19_in_of_eq",
    "Pica.Props.C19_in_false",
    "Pica.Props.C19_set",
    "Pica.Props.C19_field"
   ],
   "note": "=? lists proved in full. in lists: false with case-ignore because == compares lengths before case folding (C19_in_false, Kelvin sign); proved where case is significant or lengths agree."
  },
  {
   "property": "C20",
   "status": "partial",
   "theorems": [
    "Pica.Props.C20_partial",
    "Pica.Props.C20_clean_partial",
    "Pica.Props.C20_format_false",
    "Pica.Props.C20_false",
    "Pica.Props.C20_sub_meaning",
    "Pica.Props.C20_field_meaning",
    "Pica.Props.C20_path_meaning",
    "Pica.Props.C20_format_meaning"
   ],
   "note": "False: the nesting counters are thread local and not reset after a failure (C20_false, C20_format_false). Partial: texts without parenthesis, and every text after a clean history. C20_*_meaning: what earlier calls can change is only whether a text is accepted; whenever a matcher, path or format is accepted, it means the same."
  },
  {
   "property": "C21",
   "status": "partial",
   "theorems": [
    "Pica.Props.C21_sub_exact",
    "Pica.Props.C21_sub_partial",
    "Pica.Props.C21_sub_reject",
    "Pica.Props.C21_false",
    "Pica.Props.C21_field"
   ],
   "note": "Field level proved up to the limit, with all simple matchers, braces and repeated negation inside. Subfield level false: three pairs of parentheses are never accepted (C21_sub_reject), because the counter is never decremented; C21_sub_exact gives the exact condition."
  },
  {
   "property": "C22",
   "status": "partial",
   "theorems": [
    "Pica.Props.C22_sub_partial",
    "Pica.Props.C22_record_partial",
    "Pica.Props.C22_false"
   ],
   "note": "Regex compilation at evaluation time can fail (size limit with case-insensitive, or as a set) and panics (C22_false). Partial: under the hypothesis that the accepted regexes compile with the options in force."
  },
  {
   "property": "C23",
   "status": "proved",
   "theorems": [
    "Pica.Props.C23_values",
    "Pica.Props.C23_text",
    "Pica.Props.C23_dot",
    "Pica.Props.C23_first",
    "Pica.Props.C23_ppn",
    "Pica.Props.C23_string",
    "Pica.Props.C23_unwrap",
    "Pica.Props.C23_unique"
   ],
   "note": ""
  },
  {
   "property": "C24",
   "status": "proved",
   "theorems": [
    "Pica.Props.C24_rect",
    "Pica.Props.C24_panic",
    "Pica.Props.C24_parsed"
   ],
   "note": ""
  },
  {
   "property": "C25",
   "status": "proved",
   "theorems": [
    "Pica.Props.C25_product",
    "Pica.Props.C25_rows",
    "Pica.Props.C25_count",
    "Pica.Props.C25_order",
    "Pica.Props.C25_assoc",
    "Pica.Props.C25_text"
   ],
   "note": ""
  },
  {
   "property": "C26",
   "status": "proved",
   "theorems": [
    "Pica.Props.C26_squash",
    "Pica.Props.C26_merge",
    "Pica.Props.C26_join"
   ],
   "note": ""
  },
  {
   "property": "C27",
   "status": "proved",
   "theorems": [
    "Pica.Props.C27_text",
    "Pica.Props.C27_one_per_field",
    "Pica.Props.C27_value",
    "Pica.Props.C27_and_then",
    "Pica.Props.C27_cons",
    "Pica.Props.C27_group",
    "Pica.Props.C27_modifier",
    "Pica.Props.C27_accept",
    "Pica.Props.C27_depth",
    "Pica.Props.C27_unique"
   ],
   "note": ""
  },
  {
   "property": "C28",
   "status": "proved",
   "theorems": [
    "Pica.Props.C28_output",
    "Pica.Props.C28_finishes",
    "Pica.Props.C28_invert",
    "Pica.Props.C28_invert_output"
   ],
   "note": ""
  },
  {
   "property": "C29",
   "status": "proved",
   "theorems": [
    "Pica.Props.C29_check",
    "Pica.Props.C29_empty_allow",
    "Pica.Props.C29_deny_overrides",
    "Pica.Props.C29_no_lists"
   ],
   "note": ""
  },
  {
   "property": "C30",
   "status": "proved",
   "theorems": [
    "Pica.Props.C30_main",
    "Pica.Props.C30_local",
    "Pica.Props.C30_local_blocks",
    "Pica.Props.C30_copy",
    "Pica.Props.C30_copy_blocks",
    "Pica.Props.C30_redecode",
    "Pica.Props.C30_output",
    "Pica.Props.C30_finishes"
   ],
   "note": ""
  },
  {
   "property": "C31",
   "status": "partial",
   "theorems": [
    "Pica.Props.C31_chunks_partial",
    "Pica.Props.C31_concatenation_partial",
    "Pica.Props.C31_finishes",
    "Pica.Props.C31_template_false",
    "Pica.Props.C31_wrap_false",
    "Pica.Props.C31_wrap_witness",
    "Pica.Props.C31_exact"
   ],
   "note": "False for templates without {} (C31_template_false) and beyond 2^32 records (C31_wrap_false). Partial theorems: up to 2^32 records with {} in the template."
  },
  {
   "property": "C32",
   "status": "partial",
   "theorems": [
    "Pica.Props.C32_lossless",
    "Pica.Props.C32_undoes_split_partial",
    "Pica.Props.C32_restores_partial",
    "Pica.Props.C32_unique_idn_partial",
    "Pica.Props.C32_unique_hash",
    "Pica.Props.C32_missing_idn_false",
    "Pica.Props.C32_lossy_false",
    "Pica.Props.C32_stages",
    "Pica.Props.C32_unique_idn_exact"
   ],
   "note": "--unique by IDN panics on a record without 003@.0 (C32_missing_idn_false) and conflates IDNs that are not UTF-8 (C32_lossy_false). The rest is proved; undoing split inherits the hypotheses of C31."
  },
  {
   "property": "C33",
   "status": "partial",
   "theorems": [
    "Pica.Props.C33_writers",
    "Pica.Props.C33_limit",
    "Pica.Props.C33_files_partial",
    "Pica.Props.C33_finishes",
    "Pica.Props.C33_names_false",
    "Pica.Props.C33_shared",
    "Pica.Props.C33_alone",
    "Pica.Props.C33_short",
    "Pica.Props.C33_own",
    "Pica.Props.C33_lost_false",
    "Pica.Props.C33_order_false"
   ],
   "note": "Contents of the writers proved in full; as files for every value whose file name is its own (C33_own). Missing, because the claim is false of the code: values that share a file name lose records in every order of writing (C33_lost_false, C33_order_false)."
  },
  {
   "property": "C34",
   "status": "partial",
   "theorems": [
    "Pica.Props.C34_end",
    "Pica.Props.C34_start",
    "Pica.Props.C34_length_partial",
    "Pica.Props.C34_length_skip_partial",
    "Pica.Props.C34_finishes",
    "Pica.Props.C34_length_false",
    "Pica.Props.C34_wrap_false",
    "Pica.Props.C34_length_exact",
    "Pica.Props.C34_length_iff"
   ],
   "note": "--end and --start proved. --length writes too many records with --skip-invalid (C34_length_false) and none when start + length wraps (C34_wrap_false)."
  },
  {
   "property": "C35",
   "status": "partial",
   "theorems": [
    "Pica.Props.C35_inclusion",
    "Pica.Props.C35_not_uniform_false",
    "Pica.Props.C35_positions",
    "Pica.Props.C35_distinct_partial",
    "Pica.Props.C35_finishes",
    "Pica.Props.C35_every_record_partial",
    "Pica.Props.C35_first_never_false",
    "Pica.Props.C35_uniform_false",
    "Pica.Props.C35_two_records_false"
   ],
   "note": "Distinctness and number proved for every random stream. Uniformity is false: off-by-one in random_range(0..count) (C35_uniform_false, C35_first_never_false)."
  },
  {
   "property": "C36",
   "status": "partial",
   "theorems": [
    "Pica.Props.C36_descending_partial",
    "Pica.Props.C36_ascending_partial",
    "Pica.Props.C36_reverse_false",
    "Pica.Props.C36_reverse_all_partial",
    "Pica.Props.C36_finishes"
   ],
   "note": "False with --reverse and --threshold: output stops at the first rare row (C36_reverse_false). All other option combinations proved."
  },
  {
   "property": "C37",
   "status": "proved",
   "theorems": [
    "Pica.Props.C37_exact",
    "Pica.Props.C37_separators",
    "Pica.Props.C37_raw",
    "Pica.Props.C37_additive",
    "Pica.Props.C37_report",
    "Pica.Props.C37_finishes"
   ],
   "note": ""
  },
  {
   "property": "C38",
   "status": "partial",
   "theorems": [
    "Pica.Props.C38_binary",
    "Pica.Props.C38_import",
    "Pica.Props.C38_plain_partial",
    "Pica.Props.C38_plain_records",
    "Pica.Props.C38_plain_false",
    "Pica.Props.C38_json_partial",
    "Pica.Props.C38_json_false",
    "Pica.Props.C38_xml_false",
    "Pica.Props.C38_xml_panic_false",
    "Pica.Props.C38_xml_partial",
    "Pica.Props.C38_plus",
    "Pica.Props.C38_finishes",
    "Pica.Props.C38_json_exact",
    "Pica.Props.C38_plain_exact",
    "Pica.Props.C38_xml_exact"
   ],
   "note": "binary and import proved; plain loses record borders, json loses non-UTF-8 bytes, xml loses occurrences and panics on non-UTF-8 (witnesses). CSV-free; XML is modelled as data (event stream), not text."
  },
  {
   "property": "C39",
   "status": "partial",
   "theorems": [
    "Pica.Props.C39_message",
    "Pica.Props.C39_command",
    "Pica.Props.C39_accepts_exact",
    "Pica.Props.C39_length",
    "Pica.Props.C39_accepts_partial",
    "Pica.Props.C39_complete",
    "Pica.Props.C39_single_error",
    "Pica.Props.C39_transposition",
    "Pica.Props.C39_letters_false",
    "Pica.Props.C39_transposition_false",
    "Pica.Props.C39_single_error_false",
    "Pica.Props.C39_rule"
   ],
   "note": "False for values with letters and for X inside the number (witnesses); proved for values of digits, for single errors and transpositions among digits."
  },
  {
   "property": "C40",
   "status": "partial",
   "theorems": [
    "Pica.Props.C40_dangling_exact",
    "Pica.Props.C40_reports",
    "Pica.Props.C40_dangling_partial",
    "Pica.Props.C40_order_partial",
    "Pica.Props.C40_empty_false",
    "Pica.Props.C40_fast_false",
    "Pica.Props.C40_every_set",
    "Pica.Props.C40_every_dangling"
   ],
   "note": "False for a single empty dangling value and for fast termination (witnesses); otherwise proved, including order independence. C40_every_set and C40_every_dangling are exact in every rule set, also with fast termination."
  },
  {
   "property": "C41",
   "status": "partial",
   "theorems": [
    "Pica.Props.C41_message",
    "Pica.Props.C41_command",
    "Pica.Props.C41_fires_partial",
    "Pica.Props.C41_separator_partial",
    "Pica.Props.C41_complete",
    "Pica.Props.C41_collision_false"
   ],
   "note": "False when different rows join to the same text (C41_collision_false); proved where joining is injective, in particular for a separator byte that does not occur in the values."
  },
  {
   "property": "C42",
   "status": "partial",
   "theorems": [
    "Pica.Props.C42_message",
    "Pica.Props.C42_command",
    "Pica.Props.C42_fires_partial",
    "Pica.Props.C42_sound",
    "Pica.Props.C42_nonempty",
    "Pica.Props.C42_empty_false",
    "Pica.Props.C42_iso639_form"
   ],
   "note": "False for a single empty value (C42_empty_false); proved for records without empty values, soundness and non-empty completeness in general."
  },
  {
   "property": "C43",
   "status": "partial",
   "theorems": [
    "Pica.Props.C43_call",
    "Pica.Props.C43_builder",
    "Pica.Props.C43_commands_partial",
    "Pica.Props.C43_slice_false",
    "Pica.Props.C43_extension_false"
   ],
   "note": "Builder proved; slice --gzip --append panics (C43_slice_false)."
  },
  {
   "property": "C44",
   "status": "proved",
   "theorems": [
    "Pica.Props.C44_partition",
    "Pica.Props.C44_count",
    "Pica.Props.C44_same_test",
    "Pica.Props.C44_twice",
    "Pica.Props.C44_merged",
    "Pica.Props.C44_nothing_left",
    "Pica.Props.C44_joined"
   ],
   "note": ""
  },
  {
   "property": "C45",
   "status": "partial",
   "theorems": [
    "Pica.Props.C45_order_partial",
    "Pica.Props.C45_maps_partial",
    "Pica.Props.C45_modular_partial",
    "Pica.Props.C45_fast_partial",
    "Pica.Props.C45_fast_false"
   ],
   "note": "False with fast termination (C45_fast_false); proved without it. With it, whether a record is reported is order independent (C45_fast_partial)."
  },
  {
   "property": "C46",
   "status": "partial",
   "theorems": [
    "Pica.Props.C46_unique_exact",
    "Pica.Props.C46_rows",
    "Pica.Props.C46_unique_partial",
    "Pica.Props.C46_collision_false",
    "Pica.Props.C46_collisions_exist",
    "Pica.Props.C46_translit_false",
    "Pica.Props.C46_finishes"
   ],
   "note": "--unique compares 64-bit hashes (collision loses a row, C46_collision_false, and collisions exist) and compares before transliteration (C46_translit_false); proved otherwise."
  },
  {
   "property": "C47",
   "status": "proved",
   "theorems": [
    "Pica.Props.C47_relations",
    "Pica.Props.C47_negated",
    "Pica.Props.C47_eq_implies"
   ],
   "note": ""
  },
  {
   "property": "C48",
   "status": "proved",
   "theorems": [
    "Pica.Props.C48_sound",
    "Pica.Props.C48_complete",
    "Pica.Props.C48_unique",
    "Pica.Props.C48_select",
    "Pica.Props.C48_all"
   ],
   "note": ""
  },
  {
   "property": "C49",
   "status": "partial",
   "theorems": [
    "Pica.Props.C49_content",
    "Pica.Props.C49_readback_partial",
    "Pica.Props.C49_append_partial",
    "Pica.Props.C49_append_gz_false",
    "Pica.Props.C49_gzip_name_false",
    "Pica.Props.C49_dash_false"
   ],
   "note": "False for appended .gz files, --gzip with another extension and the name - (witnesses); proved for the remaining names and options."
  },
  {
   "property": "C50",
   "status": "proved",
   "theorems": [
    "Pica.Props.C50_table",
    "Pica.Props.C50_unique",
    "Pica.Props.C50_finishes"
   ],
   "note": ""
  },
  {
   "property": "C51",
   "status": "partial",
   "theorems": [
    "Pica.Props.C51_output",
    "Pica.Props.C51_panics",
    "Pica.Props.C51_utf8_false",
    "Pica.Props.C51_ambiguous_false",
    "Pica.Props.C51_determines_partial",
    "Pica.Props.C51_merged_false"
   ],
   "note": "Text and panic condition proved exactly. The last part is false in general: the text does not determine the records as soon as a field has two subfields (C51_ambiguous_false, C51_merged_false). It holds for output without transliteration if no value followed by a space contains what looks like the beginning of a subfield (C51_determines_partial). That print panics on accepted records is C51_utf8_false."
  },
  {
   "property": "C52",
   "status": "proved",
   "theorems": [
    "Pica.Props.C52_rows",
    "Pica.Props.C52_digest",
    "Pica.Props.C52_finishes"
   ],
   "note": ""
  },
  {
   "property": "C53",
   "status": "proved",
   "theorems": [
    "Pica.Props.C53_accepts",
    "Pica.Props.C53_parts",
    "Pica.Props.C53_keep"
   ],
   "note": ""
  },
  {
   "property": "C54",
   "status": "partial",
   "theorems": [
    "Pica.Props.C54_sub_partial",
    "Pica.Props.C54_field_partial",
    "Pica.Props.C54_builder_partial",
    "Pica.Props.C54_tag",
    "Pica.Props.C54_occ",
    "Pica.Props.C54_path",
    "Pica.Props.C54_query",
    "Pica.Props.C54_format_partial",
    "Pica.Props.C54_reread_partial",
    "Pica.Props.C54_false",
    "Pica.Props.C54_sub_meaning",
    "Pica.Props.C54_field_meaning"
   ],
   "note": "Proved: the printed text has, as an expression, the meaning of the matcher (C54_sub_partial, C54_field_partial, C54_builder_partial, C54_format_partial); tags, occurrences, paths and queries are read back exactly; matchers put together from simple operands are read back with the same meaning (C54_reread_partial). False in general: some printed texts are rejected (C54_false). C54_*_meaning: if the printed text of a matcher is accepted, it means the same as the matcher; so the only failures are rejections."
  },
  {
   "property": "C55",
   "status": "proved",
   "theorems": [
    "Pica.Props.C55_unicode",
    "Pica.Props.C55_command"
   ],
   "note": ""
  },
  {
   "property": "C56",
   "status": "proved",
   "theorems": [
    "Pica.Props.C56_datetime",
    "Pica.Props.C56_command"
   ],
   "note": ""
  },
  {
   "property": "C57",
   "status": "proved",
   "theorems": [
    "Pica.Props.C57_filter",
    "Pica.Props.C57_command",
    "Pica.Props.C57_same"
   ],
   "note": ""
  },
  {
   "property": "C58",
   "status": "proved",
   "theorems": [
    "Pica.Props.C58_run",
    "Pica.Props.C58_reports"
   ],
   "note": ""
  },
  {
   "property": "C59",
   "status": "partial",
   "theorems": [
    "Pica.Props.C59_expr",
    "Pica.Props.C59_file_partial",
    "Pica.Props.C59_dash_false"
   ],
   "note": "Proved for all argument lists except two arguments of which the second is \"-\", together with --file: there the claim is false, standard input is dropped (C59_dash_false)."
  },
  {
   "property": "C60",
   "status": "proved",
   "theorems": [
    "Pica.Props.C60_selection",
    "Pica.Props.C60_used",
    "Pica.Props.C60_error",
    "Pica.Props.C60_filter",
    "Pica.Props.C60_filter_error"
   ],
   "note": ""
  },
  {
   "property": "C61",
   "status": "proved",
   "theorems": [
    "Pica.Props.C61_accepted",
    "Pica.Props.C61_total",
    "Pica.Props.C61_set",
    "Pica.Props.C61_unset",
    "Pica.Props.C61_get",
    "Pica.Props.C61_unknown"
   ],
   "note": ""
  },
  {
   "property": "C62",
   "status": "proved",
   "theorems": [
    "Pica.Props.C62_lists",
    "Pica.Props.C62_admitted"
   ],
   "note": ""
  },
  {
   "property": "C63",
   "status": "proved",
   "theorems": [
    "Pica.Props.C63_path",
    "Pica.Props.C63_query"
   ],
   "note": ""
  },
  {
   "property": "C64",
   "status": "proved",
   "theorems": [
    "Pica.Props.C64_filter_filter",
    "Pica.Props.C64_and",
    "Pica.Props.C64_count",
    "Pica.Props.C64_concat",
    "Pica.Props.C64_limit"
   ],
   "note": ""
  },
  {
   "property": "C65",
   "status": "partial",
   "theorems": [
    "Pica.Props.C65_local_iff",
    "Pica.Props.C65_copy",
    "Pica.Props.C65_local_partial",
    "Pica.Props.C65_local_false",
    "Pica.Props.C65_refine",
    "Pica.Props.C65_pipeline",
    "Pica.Props.C65_pipeline_finishes"
   ],
   "note": "False for explode local (C65_local_false: a main field between a copy and a local field); proved for copy, and for local where no main field comes after a field below the main level."
  },
  {
   "property": "C66",
   "status": "partial",
   "theorems": [
    "Pica.Props.C66_first",
    "Pica.Props.C66_filter",
    "Pica.Props.C66_concat",
    "Pica.Props.C66_explode",
    "Pica.Props.C66_split",
    "Pica.Props.C66_slice",
    "Pica.Props.C66_partition",
    "Pica.Props.C66_print",
    "Pica.Props.C66_hash",
    "Pica.Props.C66_select",
    "Pica.Props.C66_count",
    "Pica.Props.C66_describe",
    "Pica.Props.C66_frequency",
    "Pica.Props.C66_sample",
    "Pica.Props.C66_convert",
    "Pica.Props.C66_check",
    "Pica.Props.C66_quiet",
    "Pica.Props.C66_exit_partial",
    "Pica.Props.C66_pipe_false"
   ],
   "note": "Proved for every command with a record loop. False only for the exit status after a pipe is closed while CSV rows are written (C66_pipe_false)."
  },
  {
   "property": "C67",
   "status": "proved",
   "theorems": [
    "Pica.Props.C67_frequency_select",
    "Pica.Props.C67_frequency_sum",
    "Pica.Props.C67_describe_count",
    "Pica.Props.C67_hash_count",
    "Pica.Props.C67_slice_adjacent",
    "Pica.Props.C67_slice_rest",
    "Pica.Props.C67_slice_slice",
    "Pica.Props.C67_filter_twice"
   ],
   "note": ""
  },
  {
   "property": "C68",
   "status": "partial",
   "theorems": [
    "Pica.Props.C68_format",
    "Pica.Props.C68_table_partial",
    "Pica.Props.C68_text",
    "Pica.Props.C68_header_false",
    "Pica.Props.C68_load",
    "Pica.Props.C68_allow"
   ],
   "note": "False without reports: the table then has no header (C68_header_false); proved in all other cases."
  },
  {
   "property": "C69",
   "status": "proved",
   "theorems": [
    "Pica.Props.C69_sub_one",
    "Pica.Props.C69_sub_single",
    "Pica.Props.C69_sub",
    "Pica.Props.C69_sub_kind",
    "Pica.Props.C69_field_one",
    "Pica.Props.C69_field_single",
    "Pica.Props.C69_field"
   ],
   "note": ""
  },
  {
   "property": "C70",
   "status": "proved",
   "theorems": [
    "Pica.Props.C70_parts",
    "Pica.Props.C70_field_eq",
    "Pica.Props.C70_record_eq",
    "Pica.Props.C70_faithful",
    "Pica.Props.C70_write",
    "Pica.Props.C70_field_new",
    "Pica.Props.C70_readback",
    "Pica.Props.C70_access",
    "Pica.Props.C70_level"
   ],
   "note": ""
  },
  {
   "property": "C71",
   "status": "partial",
   "theorems": [
    "Pica.Props.C71_sub",
    "Pica.Props.C71_field",
    "Pica.Props.C71_format",
    "Pica.Props.C71_sub_depth_partial",
    "Pica.Props.C71_field_depth_partial",
    "Pica.Props.C71_format_depth",
    "Pica.Props.C71_sub_depth_false",
    "Pica.Props.C71_field_depth_false",
    "Pica.Props.C71_repeat",
    "Pica.Props.C71_separated"
   ],
   "note": "Termination proved for all parsers. A constant bound of the nesting holds for formats; for matchers the bound is 257 plus the number of exclamation marks, and no constant suffices (C71_sub_depth_false, C71_field_depth_false)."
  },
  {
   "property": "C72",
   "status": "proved",
   "theorems": [
    "Pica.Props.C72_arrives",
    "Pica.Props.C72_arrives_unique",
    "Pica.Props.C72_filter",
    "Pica.Props.C72_concat",
    "Pica.Props.C72_explode",
    "Pica.Props.C72_split",
    "Pica.Props.C72_partition",
    "Pica.Props.C72_print",
    "Pica.Props.C72_hash",
    "Pica.Props.C72_select",
    "Pica.Props.C72_count",
    "Pica.Props.C72_describe",
    "Pica.Props.C72_frequency",
    "Pica.Props.C72_sample",
    "Pica.Props.C72_convert",
    "Pica.Props.C72_check",
    "Pica.Props.C72_slice",
    "Pica.Props.C72_invalid",
    "Pica.Props.C72_pieces",
    "Pica.Props.C72_exit"
   ],
   "note": ""
  },
  {
   "property": "C73",
   "status": "partial",
   "theorems": [
    "Pica.Props.C73_stdout_partial",
    "Pica.Props.C73_gzip_false",
    "Pica.Props.C73_pipe",
    "Pica.Props.C73_commands"
   ],
   "note": "False: with gzip set, standard output is compressed, against the comments in writer.rs (C73_gzip_false). Everything else is proved."
  },
  {
   "property": "C74",
   "status": "partial",
   "theorems": [
    "Pica.Props.C74_complete_partial",
    "Pica.Props.C74_prefix",
    "Pica.Props.C74_works",
    "Pica.Props.C74_pipe",
    "Pica.Props.C74_status_partial",
    "Pica.Props.C74_gzip",
    "Pica.Props.C74_xml_lost",
    "Pica.Props.C74_xml_false",
    "Pica.Props.C74_xml_stdout_false",
    "Pica.Props.C74_gzip_stdout_false",
    "Pica.Props.C74_xml_panic"
   ],
   "note": "False for convert to XML (the buffer is not flushed, C74_xml_lost, C74_xml_false) and for compressed standard output (C74_gzip_stdout_false). Proved for all other writers (C74_complete_partial, C74_status_partial); C74_prefix and C74_works hold for all."
  },
  {
   "property": "C75",
   "status": "partial",
   "theorems": [
    "Pica.Props.C75_unique",
    "Pica.Props.C75_append",
    "Pica.Props.C75_rows",
    "Pica.Props.C75_select",
    "Pica.Props.C75_select_header",
    "Pica.Props.C75_status",
    "Pica.Props.C75_frequency",
    "Pica.Props.C75_frequency_err",
    "Pica.Props.C75_hash",
    "Pica.Props.C75_check_delimiter",
    "Pica.Props.C75_check",
    "Pica.Props.C75_never_false",
    "Pica.Props.C75_never_partial",
    "Pica.Props.C75_delimiter"
   ],
   "note": "False with --quote-style never (C75_never_false; C75_never_partial for values without special characters) and if the header has the wrong number of names (C75_select_header, second parts of C75_frequency and C75_hash). Proved in all other cases: C75_unique, C75_rows, C75_select, C75_frequency, C75_hash, C75_check."
  },
  {
   "property": "C76",
   "status": "partial",
   "theorems": [
    "Pica.Props.C76_unique",
    "Pica.Props.C76_data",
    "Pica.Props.C76_wellformed_iff",
    "Pica.Props.C76_partial",
    "Pica.Props.C76_control_false",
    "Pica.Props.C76_cr_false"
   ],
   "note": "False for values with control characters (C76_control_false) and with carriage returns (C76_cr_false). Exactly characterised by C76_wellformed_iff and C76_data; C76_partial for all other values."
  },
  {
   "property": "C77",
   "status": "proved",
   "theorems": [
    "Pica.Props.C77_unique",
    "Pica.Props.C77_text",
    "Pica.Props.C77_records",
    "Pica.Props.C77_cut"
   ],
   "note": "the grammar of RFC 8259 is a separate specification with unique reading; assumed of lossy decoding: its results are valid UTF-8 (proved for the concrete decoder in C88_json)"
  },
  {
   "property": "C78",
   "status": "partial",
   "theorems": [
    "Pica.Props.C78_kept_partial",
    "Pica.Props.C78_last_partial",
    "Pica.Props.C78_untouched",
    "Pica.Props.C78_loads",
    "Pica.Props.C78_default",
    "Pica.Props.C78_read",
    "Pica.Props.C78_saved",
    "Pica.Props.C78_ends",
    "Pica.Props.C78_replaced_false",
    "Pica.Props.C78_cut_false",
    "Pica.Props.C78_required_false"
   ],
   "note": "missing: saving that is broken off, and files that cannot be read at the beginning; there the claim is false (C78_cut_false, C78_replaced_false, C78_required_false)"
  },
  {
   "property": "C79",
   "status": "partial",
   "theorems": [
    "Pica.Props.C79_read_partial",
    "Pica.Props.C79_files_partial",
    "Pica.Props.C79_names",
    "Pica.Props.C79_accept_partial",
    "Pica.Props.C79_plain",
    "Pica.Props.C79_anytime",
    "Pica.Props.C79_rule_false",
    "Pica.Props.C79_set_false",
    "Pica.Props.C79_silent_false",
    "Pica.Props.C79_false"
   ],
   "note": "missing: that no entry of a rule file is ignored; unknown keys are (C79_rule_false, C79_set_false, C79_false), so that a file whose table of rules has another name checks nothing (C79_silent_false)"
  },
  {
   "property": "C80",
   "status": "partial",
   "theorems": [
    "Pica.Props.C80_table",
    "Pica.Props.C80_text",
    "Pica.Props.C80_records",
    "Pica.Props.C80_hash",
    "Pica.Props.C80_pipeline",
    "Pica.Props.C80_select",
    "Pica.Props.C80_check_partial",
    "Pica.Props.C80_names",
    "Pica.Props.C80_rename",
    "Pica.Props.C80_readers",
    "Pica.Props.C80_check_false",
    "Pica.Props.C80_describe_partial",
    "Pica.Props.C80_describe_false"
   ],
   "note": "missing: check -o with names such as x.tsv.gz, which are read in another format than they are written (C80_check_false), and describe --csv with a name that ends with .tsv (C80_describe_false); for both the claim is false of the code"
  },
  {
   "property": "C81",
   "status": "partial",
   "theorems": [
    "Pica.Props.C81_selection",
    "Pica.Props.C81_count_partial",
    "Pica.Props.C81_count_report",
    "Pica.Props.C81_hash",
    "Pica.Props.C81_print",
    "Pica.Props.C81_sample",
    "Pica.Props.C81_slice",
    "Pica.Props.C81_split",
    "Pica.Props.C81_describe",
    "Pica.Props.C81_explode",
    "Pica.Props.C81_conversions",
    "Pica.Props.C81_select",
    "Pica.Props.C81_frequency",
    "Pica.Props.C81_partition_partial",
    "Pica.Props.C81_filter",
    "Pica.Props.C81_check",
    "Pica.Props.C81_minimum_false",
    "Pica.Props.C81_normalization_false",
    "Pica.Props.C81_source_false",
    "Pica.Props.C81_limit_false",
    "Pica.Props.C81_slice_length",
    "Pica.Props.C81_partition_limit"
   ],
   "note": "missing, because the claim is false of the code: count ignores --limit (C81_limit_false); the path of partition and of --filter-set-source is not normalised (C81_normalization_false); --ignore-case and --strsim-threshold do not hold in --filter-set-source (C81_source_false); a score equal to the threshold does not match (C81_minimum_false)"
  },
  {
   "property": "C82",
   "status": "partial",
   "theorems": [
    "Pica.Props.C82_input",
    "Pica.Props.C82_hash",
    "Pica.Props.C82_count",
    "Pica.Props.C82_print",
    "Pica.Props.C82_split",
    "Pica.Props.C82_sample",
    "Pica.Props.C82_describe",
    "Pica.Props.C82_select_partial",
    "Pica.Props.C82_frequency_partial",
    "Pica.Props.C82_partition",
    "Pica.Props.C82_check_partial",
    "Pica.Props.C82_plain",
    "Pica.Props.C82_accepted",
    "Pica.Props.C82_slice_partial",
    "Pica.Props.C82_explode",
    "Pica.Props.C82_filters",
    "Pica.Props.C82_and",
    "Pica.Props.C82_slice_false",
    "Pica.Props.C82_explode_false"
   ],
   "note": "missing, because the claim is false of the code: slice --length (C82_slice_false), filter before explode (C82_explode_false). select, frequency and check need that queries and rules are parsed to the same after the expressions, which holds for queries without parenthesis."
  },
  {
   "property": "C83",
   "status": "partial",
   "theorems": [
    "Pica.Props.C83_same",
    "Pica.Props.C83_partial",
    "Pica.Props.C83_nested",
    "Pica.Props.C83_false",
    "Pica.Props.C83_twenty"
   ],
   "note": "missing, because the claim is false of the code: nested parentheses take 8^d attempts (C83_false, C83_twenty; exact number in C83_nested). Proved: polynomial for a bounded number of parentheses."
  },
  {
   "property": "C84",
   "status": "partial",
   "theorems": [
    "Pica.Props.C84_plain",
    "Pica.Props.C84_split",
    "Pica.Props.C84_partition_partial",
    "Pica.Props.C84_default_partial",
    "Pica.Props.C84_absolute_false",
    "Pica.Props.C84_parent_false"
   ],
   "note": "missing, because the claim is false of the code: values with slashes lead out of the output directory (C84_absolute_false, C84_parent_false). split is proved for all templates that are plain names."
  },
  {
   "property": "C85",
   "status": "partial",
   "theorems": [
    "Pica.Props.C85_tag",
    "Pica.Props.C85_occurrence_partial",
    "Pica.Props.C85_occurrence_false",
    "Pica.Props.C85_predicate",
    "Pica.Props.C85_relation",
    "Pica.Props.C85_quantifier"
   ],
   "note": "missing, because the claim is false of the code: the Display of OccurrenceRef has a slash, with which no occurrence is read, that of Occurrence has none (C85_occurrence_false). Proved for owned occurrences, tags, operators, quantifiers and predicates."
  },
  {
   "property": "C86",
   "status": "partial",
   "theorems": [
    "Pica.Props.C86_count",
    "Pica.Props.C86_describe",
    "Pica.Props.C86_frequency",
    "Pica.Props.C86_select",
    "Pica.Props.C86_hash",
    "Pica.Props.C86_filter",
    "Pica.Props.C86_print",
    "Pica.Props.C86_partition",
    "Pica.Props.C86_check_partial",
    "Pica.Props.C86_concat_partial",
    "Pica.Props.C86_concat_hash_partial",
    "Pica.Props.C86_limit_false",
    "Pica.Props.C86_concat_idn_false",
    "Pica.Props.C86_link_false",
    "Pica.Props.C86_division",
    "Pica.Props.C86_commands",
    "Pica.Props.C86_outputs",
    "Pica.Props.C86_check_any_partial"
   ],
   "note": "missing, because the claim is false of the code: concat --unique by IDN keeps the first record of an IDN (C86_concat_idn_false), the message of the link check lists the values in the order of the records (C86_link_false; otherwise the reports agree, C86_check_any_partial), and with a limit the order matters (C86_limit_false). concat --unique by checksum and select --unique are proved for hashes without collision on the input."
  },
  {
   "property": "C87",
   "status": "partial",
   "theorems": [
    "Pica.Props.C87_same",
    "Pica.Props.C87_counts",
    "Pica.Props.C87_error",
    "Pica.Props.C87_all_lines",
    "Pica.Props.C87_count",
    "Pica.Props.C87_invalid",
    "Pica.Props.C87_concat_partial",
    "Pica.Props.C87_concat_written",
    "Pica.Props.C87_concat_false",
    "Pica.Props.C87_number",
    "Pica.Props.C87_message"
   ],
   "note": "missing, because the claim is false of the code: concat --unique does not count the records it leaves out (C87_concat_false); what it counts is C87_concat_written. The drawing of the bar and the measured rate are not modelled."
  },
  {
   "property": "C88",
   "status": "proved",
   "theorems": [
    "Pica.Props.C88_text",
    "Pica.Props.C88_valid",
    "Pica.Props.C88_same",
    "Pica.Props.C88_ascii",
    "Pica.Props.C88_length",
    "Pica.Props.C88_cut",
    "Pica.Props.C88_assumptions",
    "Pica.Props.C88_json",
    "Pica.Props.C88_partition",
    "Pica.Props.C88_ambiguous"
   ],
   "note": "that bstr replaces maximal subparts is trusted (documentation of the crate); everything else is proved"
  },
  {
   "property": "C89",
   "status": "proved",
   "theorems": [
    "Pica.Props.C89_text",
    "Pica.Props.C89_bytes",
    "Pica.Props.C89_again",
    "Pica.Props.C89_components",
    "Pica.Props.C89_lists",
    "Pica.Props.C89_printed",
    "Pica.Props.C89_format"
   ],
   "note": "that str::trim and bstr trim remove the characters with the property White_Space is trusted (documentation); case mapping and removal of blanks by the modifier are outside C89_format"
  },
  {
   "property": "C90",
   "status": "partial",
   "theorems": [
    "Pica.Props.C90_distance",
    "Pica.Props.C90_score",
    "Pica.Props.C90_compared",
    "Pica.Props.C90_similar",
    "Pica.Props.C90_threshold_partial",
    "Pica.Props.C90_default",
    "Pica.Props.C90_ends",
    "Pica.Props.C90_matcher",
    "Pica.Props.C90_threshold_false",
    "Pica.Props.C90_rounding"
   ],
   "note": "false for the thresholds 1-6, 15-18, 29-31, 41-43, 57-59 and 82, where a score equal to the threshold passes because of rounding; C90_similar says exactly when. strsim is not part of the repository, its source is followed; f64 as rationals rounded to 53 binary digits"
  },
  {
   "property": "C91",
   "status": "partial",
   "theorems": [
    "Pica.Props.C91_field",
    "Pica.Props.C91_sub",
    "Pica.Props.C91_path",
    "Pica.Props.C91_format",
    "Pica.Props.C91_query",
    "Pica.Props.C91_without",
    "Pica.Props.C91_off",
    "Pica.Props.C91_path_dollar",
    "Pica.Props.C91_path_braces",
    "Pica.Props.C91_sub_dollar_partial",
    "Pica.Props.C91_sub_only",
    "Pica.Props.C91_field_dollar_partial",
    "Pica.Props.C91_field_braces_partial",
    "Pica.Props.C91_path_filter_partial",
    "Pica.Props.C91_field_list_false",
    "Pica.Props.C91_sub_false"
   ],
   "note": "conservativity is proved in full; $ is false of lists of codes directly after the tag and of the matchers other than comparisons and =? in braces; C91_sub_only says which accept it"
  },
  {
   "property": "C92",
   "status": "partial",
   "theorems": [
    "Pica.Props.C92_reports",
    "Pica.Props.C92_first_partial",
    "Pica.Props.C92_records_partial",
    "Pica.Props.C92_link_false",
    "Pica.Props.C92_rule"
   ],
   "note": "False with link, which reports at the end of the input only (C92_link_false). Exact without it (C92_first_partial); C92_reports and C92_rule hold for all rules."
  },
  {
   "property": "C93",
   "status": "proved",
   "theorems": [
    "Pica.Props.C93_plus",
    "Pica.Props.C93_binary",
    "Pica.Props.C93_plain",
    "Pica.Props.C93_import",
    "Pica.Props.C93_back"
   ],
   "note": "Exact for the four formats whose writers only copy bytes; json is C77, xml is C76. When a run ends with an error, C66_convert says what has been written."
  },
  {
   "property": "C94",
   "status": "partial",
   "theorems": [
    "Pica.Props.C94_no_panic",
    "Pica.Props.C94_tests",
    "Pica.Props.C94_count",
    "Pica.Props.C94_describe",
    "Pica.Props.C94_explode",
    "Pica.Props.C94_hash",
    "Pica.Props.C94_split",
    "Pica.Props.C94_slice",
    "Pica.Props.C94_partition",
    "Pica.Props.C94_sample",
    "Pica.Props.C94_frequency",
    "Pica.Props.C94_select",
    "Pica.Props.C94_filter",
    "Pica.Props.C94_print_partial",
    "Pica.Props.C94_print_false",
    "Pica.Props.C94_concat_partial",
    "Pica.Props.C94_convert_partial",
    "Pica.Props.C94_check",
    "Pica.Props.C94_regex_false",
    "Pica.Props.C94_concat_false",
    "Pica.Props.C94_convert_false"
   ],
   "note": "False for print, convert --to xml, concat --unique by IDN, and regular expressions that do not compile with --ignore-case; there with the exact condition as hypothesis. Compiles and RulesCompile exclude the last."
  },
  {
   "property": "C95",
   "status": "proved",
   "theorems": [
    "Pica.Props.C95_divide",
    "Pica.Props.C95_lists",
    "Pica.Props.C95_texts",
    "Pica.Props.C95_count_lists",
    "Pica.Props.C95_count_or",
    "Pica.Props.C95_count_not"
   ],
   "note": "For all options, lists, expressions and input files. The count theorems relate three or four runs of count on the same files through the theorem C81_count_partial about one run; they assume, as there, that the options are accepted, that the regular expressions compile, and that the runs end normally."
  },
  {
   "property": "C96",
   "status": "partial",
   "theorems": [
    "Pica.Props.C96_file",
    "Pica.Props.C96_tee",
    "Pica.Props.C96_concat_file",
    "Pica.Props.C96_table_file",
    "Pica.Props.C96_filter_partial",
    "Pica.Props.C96_concat_partial",
    "Pica.Props.C96_select_partial",
    "Pica.Props.C96_count",
    "Pica.Props.C96_gz_false",
    "Pica.Props.C96_header_false",
    "Pica.Props.C96_unique_false",
    "Pica.Props.C96_limit_false"
   ],
   "note": "Proved for any number of runs and any contents of the files, with output and tee file, as an equality that includes failing runs. Not true with a limit, with --unique, with a header, and for names ending in .gz: see the theorems with suffix _false."
  },
  {
   "property": "C97",
   "status": "partial",
   "theorems": [
    "Pica.Props.C97_iso639",
    "Pica.Props.C97_bibliographic",
    "Pica.Props.C97_check_partial",
    "Pica.Props.C97_jel_partial",
    "Pica.Props.C97_jel_false"
   ],
   "note": "ISO 639-2/B: the list equals a separately written table (from memory; assumed to be the published one). The check is exact for records without empty values (disagreement 17). JEL: form and closure under categories, false for Z0 only (C97_jel_false); the JEL codes themselves are not compared with a publication."
  },
  {
   "property": "C98",
   "status": "partial",
   "theorems": [
    "Pica.Props.C98_filter",
    "Pica.Props.C98_select",
    "Pica.Props.C98_print",
    "Pica.Props.C98_hash",
    "Pica.Props.C98_explode",
    "Pica.Props.C98_slice",
    "Pica.Props.C98_partition",
    "Pica.Props.C98_frequency",
    "Pica.Props.C98_describe",
    "Pica.Props.C98_split_partial",
    "Pica.Props.C98_split_false",
    "Pica.Props.C98_rest",
    "Pica.Props.C98_rest_tables",
    "Pica.Props.C98_at_most",
    "Pica.Props.C98_results",
    "Pica.Props.C98_check_false",
    "Pica.Props.C98_sample_false",
    "Pica.Props.C98_check_partial",
    "Pica.Props.C98_before",
    "Pica.Props.C98_before_false",
    "Pica.Props.C98_sliced_partial",
    "Pica.Props.C98_sliced_explode_partial",
    "Pica.Props.C98_sliced_false"
   ],
   "note": "For the output of filter, select, print, hash, explode, slice, partition, the tables of frequency and describe, and the reports of check without link rules; what comes after the limit does not matter in all twelve commands. For split only if the template has braces and fewer than 2^32 records are written. False for check with a link rule, for sample, and for split without braces."
  },
  {
   "property": "C99",
   "status": "partial",
   "theorems": [
    "Pica.Props.C99_nested",
    "Pica.Props.C99_file",
    "Pica.Props.C99_cuts_partial",
    "Pica.Props.C99_whole_partial",
    "Pica.Props.C99_pages_partial",
    "Pica.Props.C99_finishes",
    "Pica.Props.C99_pages_false",
    "Pica.Props.C99_zero_false"
   ],
   "note": "For runs that succeed, without --limit, for files whose name does not end with .gz. Pages only if no invalid line is skipped (otherwise false, C99_pages_false); cuts greater than 0 (C99_zero_false)."
  }
 ]
}