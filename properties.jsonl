{"id": "C01", "title": "Decode then encode is the identity", "statement": "Whenever ByteRecord::from_bytes / RecordRef::from_bytes accepts a byte string, writing the resulting record with write_to (from the parsed fields, not from the cached raw bytes) reproduces exactly that byte string.", "quantifier": "every byte string", "why_tests_cant": "the space of byte strings is infinite; a lossy corner (empty value, missing occurrence, field without subfields, separator-like bytes) needs only one input to break", "anchors": ["src/primitives/parse.rs: parse_record_ref", "src/primitives/record.rs: RecordRef::from_bytes, RecordRef::write_to", "src/primitives/field.rs: FieldRef::write_to", "src/record.rs: ByteRecord::from_bytes"]}
{"id": "C02", "title": "Encode then decode is the identity", "statement": "For every record with at least one field whose parts were accepted by the validating constructors, the bytes written by write_to are accepted by from_bytes and decode to an equal record; distinct records therefore have distinct encodings. The constructors accept exactly the well-formed parts: every well-formed record is constructed, from its parts and nothing else. (A record without fields writes nothing and is rejected when read back.)", "quantifier": "every record built from validated tags, occurrences, codes and values, of any number of fields and subfields", "why_tests_cant": "records are unbounded trees; equality of all of them cannot be sampled", "anchors": ["src/primitives/record.rs: RecordRef::new, write_to, from_bytes", "src/primitives/subfield.rs: SubfieldRef::write_to", "src/primitives/occurrence.rs: write_to"]}
{"id": "C03", "title": "Acceptance is exactly the PICA+ grammar", "statement": "from_bytes accepts a byte string iff it is one or more fields followed by a single newline at the very end, each field being tag [012][0-9][0-9][A-Z@], optional /NN or /NNN, one space, any number of (0x1F, alphanumeric code, value without 0x1E/0x1F) and 0x1E.", "quantifier": "every byte string, both directions", "why_tests_cant": "membership in an infinite language, including rejection of every malformed string", "anchors": ["src/primitives/parse.rs: parse_record_ref, parse_field_ref, parse_tag_ref, parse_occurrence_ref, parse_subfield_ref"]}
{"id": "C04", "title": "The reader yields exactly one item per input line", "statement": "For every input stream the reader yields, in order, one item per newline-terminated line (plus one for a non-empty unterminated rest), each item being the decoding result of that line alone; the consumed chunks concatenate to the input; an unterminated last line is always an error; after the end it yields None forever. The record loop of every command does with several files what it does with one file that holds their contents, if each file but the last ends with a line feed.", "quantifier": "every input byte stream and every number of calls", "why_tests_cant": "unbounded streams and call histories", "anchors": ["src/reader.rs: Reader::next_byte_record"]}
{"id": "C05", "title": "Written records can be read back", "statement": "Writing any sequence of valid, non-empty records with the plain writer and reading the result with the reader yields the same sequence of records and no error.", "quantifier": "every sequence of records accepted by the constructors/from_bytes", "why_tests_cant": "needs every record and every sequence; the failing case (a value containing a newline) is accepted by every constructor and by from_bytes", "anchors": ["src/writer.rs: PlainWriter::write_byte_record", "src/reader.rs: Reader::next_byte_record", "src/primitives/subfield.rs: SubfieldValueRef::new"]}
{"id": "C06", "title": "Reported line numbers are the 1-based number of the offending line", "statement": "When the reader reports an invalid record or invalid UTF-8, the line number in the error is the 1-based number of the line that is faulty.", "quantifier": "every input stream, every position of the faulty line, both next_byte_record and next_string_record", "why_tests_cant": "an off-by-one may show only on one of the reader's entry points", "anchors": ["src/reader.rs: next_byte_record, next_string_record, ReadPicaError"]}
{"id": "C07", "title": "Skipping invalid records never affects the valid ones", "statement": "With skip-invalid, a record loop delivers exactly the records of the valid lines in input order, whatever the invalid lines contain; without it, the loop delivers the records before the first invalid line and then reports an error.", "quantifier": "every input stream, every placement of invalid lines", "why_tests_cant": "independence from arbitrary garbage cannot be sampled", "anchors": ["src/reader.rs: skip_parse_err, next_byte_record", "crates/pica-cli/src/commands/*.rs: the while-let read loops"]}
{"id": "C08", "title": "StringRecord accepts exactly the valid UTF-8 records and never panics on access", "statement": "A byte string decodes to a StringRecord iff it decodes to a ByteRecord and the whole byte string is valid UTF-8; consequently every later to_str().unwrap() on a value obtained from a StringRecord (path, query, format) succeeds.", "quantifier": "every byte string", "why_tests_cant": "UTF-8 validity of the whole versus of each subfield value, with an is_ascii shortcut, must agree on every byte string", "anchors": ["src/record.rs: StringRecord::from_bytes, TryFrom<ByteRecord>", "src/primitives/subfield.rs: SubfieldRef::validate", "src/path.rs: PathExt for StringRecord"]}
{"id": "C09", "title": "The level of a field is total and is its first digit", "statement": "For every tag that can be obtained from parsing or a validating constructor, level() does not panic and returns main, local or copy according to the first digit 0, 1 or 2.", "quantifier": "every tag", "why_tests_cant": "the code has an unreachable!() branch", "anchors": ["src/primitives/tag.rs: TagRef::level, TagRef::from_bytes"]}
{"id": "C10", "title": "keep and discard", "statement": "keep(preds) leaves exactly the fields matching one of the predicates, discard(preds) exactly the others, both in the original order; the two results together are a partition of the fields; an empty predicate list changes nothing; both are idempotent and commute; after any sequence of them the written bytes are exactly the encoding of the remaining fields.", "quantifier": "every record, every predicate list and every sequence of keep/discard/retain calls", "why_tests_cant": "unbounded call histories; the record caches its raw bytes, which must never be written once stale", "anchors": ["src/record.rs: ByteRecord::retain, keep, discard, write_to"]}
{"id": "C11", "title": "Equality, hash and checksum of byte records agree", "statement": "For all byte records reachable from from_bytes, From<RecordRef>, retain, keep and discard: they compare equal iff their fields are equal, equal records hash equally and have the same SHA-256 input, and the comparison is an equivalence relation.", "quantifier": "every pair of histories producing two records", "why_tests_cant": "the comparison takes a raw-bytes shortcut only if both sides still have raw bytes; coherence over mixed histories is not testable exhaustively", "anchors": ["src/record.rs: PartialEq, Hash, sha256, DerefMut for ByteRecord"]}
{"id": "C12", "title": "Tag pattern semantics", "statement": "A tag matcher text is a literal tag or a pattern of four positions; the matcher built from it accepts a tag iff each byte of the tag is in the class denoted at that position ('.' = every byte allowed there, [x-y..] = the listed bytes and ranges); a literal tag behaves as the pattern of its own bytes and matches only itself.", "quantifier": "every accepted matcher text and every tag", "why_tests_cant": "unbounded bracket lists; all tags", "anchors": ["src/matcher/tag.rs: TagMatcher, parse_tag_matcher"]}
{"id": "C13", "title": "Occurrence matcher semantics", "statement": "Without an occurrence selector a field matches iff it has no occurrence or occurrence 00; /* matches every field; /n matches exactly n; /a-b matches exactly the occurrences with a numeric value between a and b.", "quantifier": "every accepted selector text and every occurrence", "why_tests_cant": "ranges compare raw bytes, widths may differ; the faulty combination (2-digit range, 3-digit occurrence) is easily missed", "anchors": ["src/matcher/occurrence.rs: OccurrenceMatcher::is_match, parse_occurrence_matcher"]}
{"id": "C14", "title": "Combining matchers with &, |, ^, ! means and, or, xor, not", "statement": "For all field matchers and subfield matchers a and b, and every record, (a & b), (a | b), (a ^ b), !a and the assigning variants evaluate to the conjunction, disjunction, exclusive disjunction and negation of their operands, whatever parentheses are inserted automatically.", "quantifier": "every pair of matchers (arbitrarily nested), every record and option set", "why_tests_cant": "unbounded expression trees with automatic regrouping", "anchors": ["src/matcher/field/mod.rs: BitAnd, BitOr, BitXor, Not", "src/matcher/subfield/mod.rs: BitAnd, BitOr, BitXor, Not"]}
{"id": "C15", "title": "Builder semantics of --and, --or, --not", "statement": "A record matcher built from a base expression and lists of and/or/not predicates matches a record iff (base and all and-predicates, or some or-predicate) and none of the not-predicates, in the order the builder methods are called.", "quantifier": "every base, every list of predicates, every record", "why_tests_cant": "unbounded lists and nesting", "anchors": ["src/matcher/builder.rs: RecordMatcherBuilder"]}
{"id": "C16", "title": "Operator precedence of filter expressions", "statement": "An expression a1 op1 a2 op2 ... an over atoms evaluates with && binding tighter than ^ and ^ tighter than ||.", "quantifier": "every sequence of atoms and operators of any length", "why_tests_cant": "unbounded expression length; the parser is a chain of backtracking alternatives", "anchors": ["src/matcher/subfield/parser.rs: or/xor/and matcher", "src/matcher/field/parser.rs: or/xor/and matcher"]}
{"id": "C17", "title": "Quantifier laws", "statement": "ANY is the existential and ALL the universal quantifier over the selected subfields (or, on field level, over the selected fields); in particular ALL holds vacuously when nothing is selected, and 'ALL x op v' is the negation of 'ANY x (negated op) v' for ==/!=, =^/!^, =$/!$ and in/not in.", "quantifier": "every field/record, code list and operand", "why_tests_cant": "all field contents", "anchors": ["src/matcher/subfield/mod.rs: RelationMatcher, InMatcher, ContainsMatcher", "src/matcher/field/mod.rs: SubfieldsMatcher"]}
{"id": "C18", "title": "Cardinality matchers count exactly", "statement": "'#codes op n' compares the number of subfields with one of the codes, '#tag/occ{..} op n' the number of matching fields, with n; exactly one of <, ==, > holds, and !=, >=, <= are their negations; evaluation of a parsed matcher never reaches the panic branch.", "quantifier": "every field/record, every n", "why_tests_cant": "unbounded counts, panic branch for other operators", "anchors": ["src/matcher/subfield/mod.rs: CardinalityMatcher", "src/matcher/field/mod.rs: CardinalityMatcher"]}
{"id": "C19", "title": "List operators are disjunctions", "statement": "'x in [v1..vn]' holds for a subfield value iff 'x == vi' holds for some i, 'x =? [v1..vn]' iff 'x =? vi' for some i, regardless of order and duplicates in the list and of case-ignore.", "quantifier": "every value, every list, both case modes", "why_tests_cant": "list lengths unbounded", "anchors": ["src/matcher/subfield/mod.rs: InMatcher, ContainsMatcher, RelationMatcher::compare"]}
{"id": "C20", "title": "Parsing depends only on the text", "statement": "Parsing the same matcher or format expression gives the same result no matter what was parsed (successfully or not) earlier on the same thread.", "quantifier": "every expression and every history of earlier parses", "why_tests_cant": "history dependence through hidden thread-local state shows only after many or unusual earlier calls", "anchors": ["src/matcher/subfield/parser.rs: group_level_inc/dec/reset", "src/matcher/field/parser.rs: group_level_*", "src/fmt/parser.rs: increment_group_level/decrement_group_level"]}
{"id": "C21", "title": "Parentheses may be nested", "statement": "Enclosing a valid subfield matcher expression in parentheses, up to the documented nesting limit, is again a valid expression with the same meaning.", "quantifier": "every expression and nesting depth below the limit", "why_tests_cant": "depth times backtracking interplay", "anchors": ["src/matcher/subfield/parser.rs: parse_subfield_group_matcher", "src/matcher/field/parser.rs: parse_field_group_matcher"]}
{"id": "C22", "title": "Evaluating a parsed matcher never panics", "statement": "For every matcher obtained from parsing, evaluation on any record terminates with a truth value; the unreachable branches for unsuitable operators are never taken.", "quantifier": "every accepted expression, every record", "why_tests_cant": "needs all accepted expressions", "anchors": ["src/matcher/subfield/mod.rs: RelationMatcher::is_match, CardinalityMatcher::is_match", "src/matcher/operator.rs: is_str_applicable, is_usize_applicable"]}
{"id": "C23", "title": "A path selects exactly the addressed values", "statement": "record.path(p) yields, in record order and with multiplicity, exactly the values of those subfields whose code is listed, in exactly those fields whose tag, occurrence and subfield filter match; first() and ppn() are its first element.", "quantifier": "every record and path", "why_tests_cant": "all records and paths", "anchors": ["src/path.rs: PathExt for RecordRef"]}
{"id": "C24", "title": "A query always yields a rectangular, non-empty table", "statement": "Every row of a query result has exactly one cell per selected column, there is at least one row, and with merge there is exactly one; evaluation never indexes out of bounds or unwraps a missing value.", "quantifier": "every record, query and option combination", "why_tests_cant": "repeated fields, missing fields, squash and merge interact", "anchors": ["src/query.rs: Fragment::query, Outcome::merge, squash, Mul, Add"]}
{"id": "C25", "title": "Query rows are the cartesian product of the fragments", "statement": "Without merge the rows are exactly the concatenations of one row per fragment in lexicographic order, the number of rows being the product of the numbers of rows of the fragments; combining outcomes is associative.", "quantifier": "every record and query", "why_tests_cant": "unbounded repetition", "anchors": ["src/query.rs: Outcome Mul, QueryExt::query"]}
{"id": "C26", "title": "Squash and merge lose no values", "statement": "With squash, each path fragment contributes one row per matching field whose cells are the separator-joined values of that column; with merge, each cell of the single row of a fragment is the separator-join, in order, of that column over all rows.", "quantifier": "every record, query, separator", "why_tests_cant": "unbounded repetition", "anchors": ["src/query.rs: Outcome::squash, Outcome::merge"]}
{"id": "C27", "title": "Formatted output is never empty and respects fragment semantics", "statement": "A format yields for each matching field at most one string, never an empty one; a value fragment takes the first n subfields with a matching code; '<$>' stops at the first empty part and '<*>' concatenates all parts; the modifiers are applied in a fixed order.", "quantifier": "every record, format and option set", "why_tests_cant": "nested fragment trees", "anchors": ["src/fmt/mod.rs: Format::fmt_field, Value::fmt_field, List::fmt_field, Group::fmt_field, Modifier"]}
{"id": "C28", "title": "filter delivers exactly the matching records", "statement": "The output of filter is, in order, the encodings of the valid records that pass the allow/deny lists and the matcher, reduced by discard and keep, cut to the first N when a limit is set; --tee receives the same bytes; the outputs with and without --invert-match (no limit) partition the records admitted by the lists.", "quantifier": "every input, matcher, option set", "why_tests_cant": "all inputs", "anchors": ["crates/pica-cli/src/commands/filter.rs: Filter::execute"]}
{"id": "C29", "title": "Deny overrides allow", "statement": "A record passes the filter lists iff none of its selected values is in the deny list (if given) and, if an allow list is given, at least one of its selected values is in it; in particular an empty allow list admits nothing.", "quantifier": "every record, allow and deny list", "why_tests_cant": "all lists", "anchors": ["crates/pica-cli/src/utils.rs: FilterSet::check"]}
{"id": "C30", "title": "explode neither loses nor duplicates fields and never panics", "statement": "explode local partitions the fields below the main level into consecutive non-empty blocks, one output record per block consisting of the main fields read so far and the block; explode copy emits records whose copy-level fields are consecutive blocks of equal occurrence covering all copy-level fields exactly once; explode main is the identity; re-decoding the exploded record always succeeds.", "quantifier": "every record, in any field order", "why_tests_cant": "any sequence of levels", "anchors": ["crates/pica-cli/src/commands/explode.rs: process_main, process_local, process_copy, Explode::execute"]}
{"id": "C31", "title": "split produces full chunks that concatenate to the input", "statement": "split with chunk size n writes the selected records in order to files 0,1,2,..., every file but the last holding exactly n records and the last between 1 and n (a single empty file if there are none); concatenating the files gives the selected records.", "quantifier": "every input and chunk size", "why_tests_cant": "boundary between chunks for all counts", "anchors": ["crates/pica-cli/src/commands/split.rs: Split::execute"]}
{"id": "C32", "title": "concat is lossless and undoes split; --unique keeps exactly first occurrences", "statement": "concat writes the valid records of all inputs in order; applied to the files of a split it restores the original; with --unique exactly the first record for each key (IDN or checksum) is written, and records without an IDN are ignored. concat may be done in stages: the output of a run that has succeeded, with or without --unique, can take the place of its files in front of any further files, and a second run changes nothing.", "quantifier": "every input, every number of files", "why_tests_cant": "unbounded histories of seen keys; the missing-IDN case", "anchors": ["crates/pica-cli/src/commands/concat.rs: Concat::execute, record_key"]}
{"id": "C33", "title": "partition writes each record to exactly its values' files", "statement": "Without limit, the file of value v contains exactly the selected records having v among the path values, each once, in input order.", "quantifier": "every input and path", "why_tests_cant": "multi-valued and repeated values", "anchors": ["crates/pica-cli/src/commands/partition.rs: Partition::execute"]}
{"id": "C34", "title": "slice returns the requested positions and at most --length records", "statement": "slice --start s --end e writes exactly the records at positions s..e-1; slice --length l writes at most l records.", "quantifier": "every input including invalid lines under --skip-invalid", "why_tests_cant": "interaction of invalid lines with the moving end of the range", "anchors": ["crates/pica-cli/src/commands/slice.rs: Slice::execute"]}
{"id": "C35", "title": "sample draws distinct input records of the requested number, uniformly", "statement": "For every random stream, sample writes min(k, n) records taken from distinct input positions; every record can be drawn, and each set of positions is equally likely.", "quantifier": "every input length, sample size and random stream", "why_tests_cant": "distribution over all random streams", "anchors": ["crates/pica-cli/src/commands/sample.rs: Sample::execute"]}
{"id": "C36", "title": "frequency counts exactly and sorts as documented", "statement": "Each distinct non-empty row is listed with its exact number of occurrences, ordered by count (descending, ascending with --reverse) and then lexicographically; --threshold t removes exactly the rows with a count below t; -n takes a prefix; --unique counts each row at most once per record.", "quantifier": "every input and option combination", "why_tests_cant": "all multisets; option interplay", "anchors": ["crates/pica-cli/src/commands/frequency.rs: Frequency::execute"]}
{"id": "C37", "title": "count is exact and additive", "statement": "count reports the number of selected records and their total numbers of fields and subfields; counting concatenated inputs adds up; the numbers equal the 0x1E and 0x1F separators in the raw data.", "quantifier": "every input", "why_tests_cant": "all inputs", "anchors": ["crates/pica-cli/src/commands/count.rs: Count::execute"]}
{"id": "C38", "title": "convert is lossless", "statement": "Two different valid records are never converted to the same output by the binary, import, plain, json and xml writers, and a record stream can be recovered from the output.", "quantifier": "every pair of records", "why_tests_cant": "injectivity over all records; escaping of $ in plain; loss of occurrence in xml", "anchors": ["crates/pica-cli/src/commands/convert/binary.rs", "crates/pica-cli/src/commands/convert/import.rs", "crates/pica-cli/src/commands/convert/plain.rs", "crates/pica-cli/src/commands/convert/json.rs", "crates/pica-cli/src/commands/convert/xml.rs"]}
{"id": "C39", "title": "isni check implements ISO 7064 MOD 11-2", "statement": "A value is accepted iff, after removing the prefix and separators, it consists of 15 digits and a check character (digit or X) satisfying ISO 7064 MOD 11-2; hence every single-digit error and every transposition of adjacent digits is detected.", "quantifier": "every value", "why_tests_cant": "all 16-character strings and all errors", "anchors": ["crates/pica-cli/src/commands/check/checks/isni.rs: Isni::check"]}
{"id": "C40", "title": "link check reports exactly the dangling references, independent of record order", "statement": "After all records have been read, a record is reported iff one of its source values (within scope) is not among the target values of any record of the whole input; the set of reports does not depend on the order of the records.", "quantifier": "every input and every permutation of it", "why_tests_cant": "all permutations; forward references", "anchors": ["crates/pica-cli/src/commands/check/checks/link.rs: Link::preprocess, check, finish", "crates/pica-cli/src/commands/check/set.rs: RuleSet::preprocess, check"]}
{"id": "C41", "title": "duplicates check reports exactly repeated rows", "statement": "The check fires iff some non-empty row of the query result occurs at least threshold times.", "quantifier": "every record, query, threshold, separator", "why_tests_cant": "rows are compared after joining with a separator; collisions are rare in samples", "anchors": ["crates/pica-cli/src/commands/check/checks/duplicates.rs: Duplicates::check"]}
{"id": "C42", "title": "List checks report exactly the values outside the list", "statement": "iso639-2b, jelc and allow fire iff some selected value is not in the respective list.", "quantifier": "every record", "why_tests_cant": "includes empty values", "anchors": ["crates/pica-cli/src/commands/check/checks/iso639.rs", "crates/pica-cli/src/commands/check/checks/jelc.rs", "crates/pica-cli/src/commands/check/checks/allow.rs"]}
{"id": "C43", "title": "Writer options gzip and append are never both active, and no command panics on them", "statement": "No sequence of builder calls yields a writer with both gzip and append set; every option combination accepted on the command line yields a writer or an orderly error.", "quantifier": "every sequence of builder calls; every flag combination", "why_tests_cant": "call order and flag combinations of each command", "anchors": ["src/writer.rs: WriterBuilder::gzip, append", "crates/pica-cli/src/commands/slice.rs", "crates/pica-cli/src/commands/filter.rs"]}
{"id": "C44", "title": "invalid and concat --skip-invalid partition the input lines", "statement": "Every line of the input appears byte for byte either in the output of invalid or in that of concat --skip-invalid, never in both, and each output preserves the input order. Nothing of the output of concat --skip-invalid is invalid; if every file ends with a line feed, invalid keeps its own output and concat --skip-invalid writes nothing of it.", "quantifier": "every input stream", "why_tests_cant": "all byte streams, including unterminated last lines", "anchors": ["crates/pica-cli/src/commands/invalid.rs: Invalid::execute", "crates/pica-cli/src/commands/concat.rs: Concat::execute"]}
{"id": "C45", "title": "check output does not depend on hash map iteration order", "statement": "For every rule set, the multiset of reported violations does not depend on the iteration order of the rules.", "quantifier": "every iteration order of the rules, every input", "why_tests_cant": "iteration order is randomised at run time", "anchors": ["crates/pica-cli/src/commands/check/set.rs: RuleSet::check, Termination"]}
{"id": "C46", "title": "select writes only useful rows and, with --unique, each row once", "statement": "select writes exactly the rows of the query results, in order, that are not entirely empty (with --no-empty-columns: have no empty cell); with --unique no row is written twice and no distinct row is lost.", "quantifier": "every input", "why_tests_cant": "uniqueness is decided by a 64-bit hash over the whole run", "anchors": ["crates/pica-cli/src/commands/select.rs: Select::execute"]}
{"id": "C47", "title": "Value relations", "statement": "On values: == is equality (case-sensitively), =^/=$ are prefix/suffix tests, =? is substring; the negated operators are exact complements; == implies =^, =$ and =?.", "quantifier": "every pair of byte strings", "why_tests_cant": "all strings", "anchors": ["src/matcher/subfield/mod.rs: RelationMatcher::compare, starts_with, ends_with, ContainsMatcher"]}
{"id": "C48", "title": "Code lists and ranges", "statement": "A subfield code list denotes exactly the listed codes and inclusive ranges, '*' all 62 codes; a code list selects a subfield of a valid record iff its code is denoted.", "quantifier": "every accepted code list text and every code", "why_tests_cant": "all lists", "anchors": ["src/parser.rs: parse_subfield_codes, code_range, code_list, code_all"]}
{"id": "C49", "title": "Records written to a file are read back from it", "statement": "Records written with a writer built by WriterBuilder to a path are given back, in order, by a reader built by ReaderBuilder for the same path; with append they follow the records that were in the file.", "quantifier": "every list of records, every path, every combination of the options gzip and append", "why_tests_cant": "all combinations of file names, options and previous contents", "anchors": ["src/writer.rs: WriterBuilder::from_path", "src/reader.rs: ReaderBuilder::from_path"]}
{"id": "C50", "title": "The table of describe", "statement": "describe writes a table with one ascending row for each tag and one ascending column for each subfield code that occurs in the selected records after discard and keep, and the cell is the number of subfields with the code in fields with the tag, independently of the order of the hash maps.", "quantifier": "every input, every selection, limit, keep and discard list and every iteration order of the hash maps", "why_tests_cant": "all inputs and all hash map orders", "anchors": ["crates/pica-cli/src/commands/describe.rs: Describe::execute"]}
{"id": "C51", "title": "The text of print", "statement": "print writes for each selected record up to the limit, in order, one line for each field (tag, occurrence, and for each subfield ' $', code, ' ' and value) and an empty line; it fails iff a printed value is not valid UTF-8, and the text determines the records.", "quantifier": "every input, selection and limit", "why_tests_cant": "all records, including values that contain the text of another subfield or that are not UTF-8", "anchors": ["crates/pica-cli/src/commands/print.rs: Print::execute"]}
{"id": "C52", "title": "The rows of hash", "statement": "hash writes for each selected record up to the limit, in order, its IDN (or the empty string) and the SHA-256 digest of its PICA+ bytes in lower case hexadecimal; unless SHA-256 collides, the digests of two records agree iff the records are equal.", "quantifier": "every input, selection and limit, every pair of records", "why_tests_cant": "all pairs of records", "anchors": ["crates/pica-cli/src/commands/hash.rs: Hash::execute", "src/primitives/record.rs: ByteRecord::sha256"]}
{"id": "C53", "title": "Lists of field predicates", "statement": "A keep or discard list is accepted iff each of its comma separated components, trimmed and without the empty ones, is a tag pattern followed by an optional occurrence selector; the resulting predicates are those of the components, in order.", "quantifier": "every text", "why_tests_cant": "all texts", "anchors": ["crates/pica-cli/src/utils.rs: parse_predicates"]}
{"id": "C54", "title": "Printed matchers, paths, queries and formats", "statement": "The text printed (and serialized) for a tag, occurrence, subfield, field or record matcher, a path, a query or a format, whether parsed or put together with the operators and the matcher builder, is accepted again and means the same; paths and queries print exactly the text they were read from.", "quantifier": "every parsed text, every combination by the operators &, |, ^, ! and their assigning forms, every chain of builder calls, all options and records", "why_tests_cant": "all texts and all combinations of operators; grouping errors show only for particular nestings", "anchors": ["src/matcher/subfield/mod.rs: Display, BitAnd, BitOr, BitXor, Not", "src/matcher/field/mod.rs: Display, BitAnd, BitOr, BitXor, Not", "src/matcher/tag.rs: Display", "src/matcher/occurrence.rs: Display", "src/path.rs: Display", "src/query.rs: Display", "src/fmt/mod.rs: Display"]}
{"id": "C55", "title": "Unicode check", "statement": "A rule with the unicode check never panics and reports exactly the records in scope that have a value that is not UTF-8 or, with a normalization form, a value that is not in this form; each is reported once, and the message lists exactly the values that are not normalised (nothing if some value is not UTF-8).", "quantifier": "all records, all normalization tests, all rule sets without fast termination in which the id is unique, all inputs", "why_tests_cant": "all byte values and all positions of the bad value; that the unwrap cannot fail depends on validation for every record", "anchors": ["crates/pica-cli/src/commands/check/checks/unicode.rs: check", "crates/pica-cli/src/commands/check/rule.rs: check"]}
{"id": "C56", "title": "Datetime check", "statement": "A rule with the datetime check never panics, whatever the offset is, and reports exactly the records in scope that have a selected value without a text in the format behind the offset; the message lists exactly these values in order.", "quantifier": "all values, offsets and date parsers, all paths, all rule sets without fast termination in which the id is unique, all inputs", "why_tests_cant": "slicing panics only for particular relations of offset and length", "anchors": ["crates/pica-cli/src/commands/check/checks/datetime.rs: check"]}
{"id": "C57", "title": "Filter check", "statement": "A rule with the filter check reports exactly the records in scope that match the expression (with invert-match: do not match), once each and without message; on the same input the reported records are those that the filter command writes with the same expression and lists.", "quantifier": "all expressions, options and inputs", "why_tests_cant": "relation between two commands on all inputs", "anchors": ["crates/pica-cli/src/commands/check/checks/filter.rs: check", "crates/pica-cli/src/commands/filter.rs: execute"]}
{"id": "C58", "title": "Choice of rules", "statement": "With --rule and --tags, check behaves exactly as if the rule sets had only the rules whose id is matched and that have one of the comma-separated tags (white space around tags ignored; rules without tags are not chosen by --tags); without fast termination the reports are exactly those reports of the unrestricted run that belong to chosen rules.", "quantifier": "all rule sets, regular expressions, tag texts and inputs", "why_tests_cant": "all combinations of rules; rules with state must not depend on the rules that are left out", "anchors": ["crates/pica-cli/src/commands/check/mod.rs: execute"]}
{"id": "C59", "title": "Positional arguments of filter", "statement": "Without --file, the first argument of filter is the expression and the remaining ones are the files (standard input if there are none); with --file, the expression is the content of the file and all arguments are the files (standard input if there are none), including standard input given as '-'.", "quantifier": "all argument lists and file contents", "why_tests_cant": "all argument lists; the combination with '-' as the second of two arguments is not tested", "anchors": ["crates/pica-cli/src/commands/filter.rs: Filter::execute"]}
{"id": "C60", "title": "Filter expressions on the command line", "statement": "Each expression given with --where, --and, --or, --not (or as argument of filter) is normalised and parsed on its own; a record is selected iff the allow and deny lists admit it and ((where and all --and) or some --or) and no --not hold, which for the combinations accepted by the command line is 'where and all --and and no --not' or 'where or some --or'; preparing fails only if one of the texts is rejected; the output of filter is then exactly the selected (or with --invert-match the admitted but not matching) records, limited and reduced as asked, where skip-invalid may come from the configuration.", "quantifier": "all expressions, lists, configurations, options and inputs", "why_tests_cant": "all combinations of options and expressions", "anchors": ["crates/pica-cli/src/cli.rs: FilterOpts::matcher", "crates/pica-cli/src/commands/filter.rs: Filter::execute"]}
{"id": "C61", "title": "Configuration", "statement": "For all arguments that the command line accepts, config does not reach an unreachable!(); setting accepts exactly the documented values, changes only the named option and get then prints the value given; unset resets only the named option; get changes nothing and prints a value that can be set again, or None; other names are errors.", "quantifier": "all arguments and configurations", "why_tests_cant": "all byte strings as values and names", "anchors": ["crates/pica-cli/src/commands/config.rs: execute", "crates/pica-cli/src/translit.rs: NormalizationForm"]}
{"id": "C62", "title": "Filter lists", "statement": "Several allow (deny) lists are the union of their used columns without null cells, where the used column is the one with the given name, otherwise ppn, otherwise idn; reading fails iff a list does not have the column; without lists nothing is excluded, while an empty allow list admits nothing; values are taken from the given source path, otherwise from 003@.0.", "quantifier": "all tables, column names and records", "why_tests_cant": "all tables and combinations of lists", "anchors": ["crates/pica-cli/src/utils.rs: read_filter_list", "crates/pica-cli/src/utils.rs: FilterSetBuilder::build"]}
{"id": "C63", "title": "Which paths and queries are accepted", "statement": "Every path tag/occurrence.codes and tag/occurrence{codes | filter}, with white space where the documentation allows it, is accepted and selects the addressed values; every comma-separated sequence of such paths, strings and formats is accepted as a query and yields the product of the rows of its fragments; a format that consists of codes only is read as a path; parsing leaves the nesting levels of the thread unchanged.", "quantifier": "all texts of this form", "why_tests_cant": "infinitely many texts; alternatives are tried in order, so one alternative may shadow another", "anchors": ["src/path.rs: parse_path", "src/query.rs: parse_query"]}
{"id": "C64", "title": "Pipelines of commands", "statement": "filter X | filter Y writes what the second command writes for the records delivered by the first; for filters without limit, inversion and reduction this is what filter X --and Y writes; filter X | count prints what count --where X prints; concat FILES | filter writes what filter FILES writes; the output with --limit is a prefix of the output without it.", "quantifier": "all inputs of valid records, all matchers and options", "why_tests_cant": "a law between two programs over all inputs and all matchers; a test compares single outputs", "anchors": ["crates/pica-cli/src/commands/filter.rs: Filter::execute", "crates/pica-cli/src/commands/count.rs: Count::execute", "crates/pica-cli/src/commands/concat.rs: Concat::execute"]}
{"id": "C65", "title": "Exploding twice", "statement": "A record produced by explode copy is not divided any further by explode copy, and a record produced by explode local is not divided any further by explode local; exploding the output of explode local by copy gives what explode copy gives directly.", "quantifier": "all valid records and inputs, all options of the second command", "why_tests_cant": "a law over all orders of fields; the counterexample needs a main field between a copy and a local field", "anchors": ["crates/pica-cli/src/commands/explode.rs: process_local", "crates/pica-cli/src/commands/explode.rs: process_copy", "crates/pica-cli/src/commands/explode.rs: Explode::execute"]}
{"id": "C66", "title": "Invalid lines are reported", "statement": "Without --skip-invalid a command that meets an invalid line has done exactly what it does with the input up to this line, and then reports the number of the line and the file; commands that write at their end write nothing; with --skip-invalid, or if all lines are valid, no command reports a line. The exit status is 2 for errors and 0 for success and for a closed output pipe.", "quantifier": "all commands with a record loop, all options, all inputs", "why_tests_cant": "relates the run on an input with the run on its beginning, for every position of the invalid line and all commands", "anchors": ["src/reader.rs: Reader::next_byte_record", "src/reader.rs: ReadPicaError::skip_parse_err", "crates/pica-cli/src/main.rs: main", "crates/pica-cli/src/error.rs: CliError"]}
{"id": "C67", "title": "Commands agree with each other", "statement": "On the same input with the same selection: the table of frequency, each row written out as often as it says, is a permutation of the rows that select writes; the cells of the table of describe add up to the subfields that count reports; hash writes as many rows as count reports records; adjacent slices put together are the larger slice, a head and the rest are the whole, a slice of a slice is the slice of the intersected range; filtering twice with the same expression and limit is filtering once.", "quantifier": "all queries, expressions, options, ranges and inputs", "why_tests_cant": "an equation between independent commands for every input; hash-map order and ties make single runs meaningless", "anchors": ["crates/pica-cli/src/commands/frequency.rs: Frequency::execute", "crates/pica-cli/src/commands/select.rs: Select::execute", "crates/pica-cli/src/commands/describe.rs: Describe::execute", "crates/pica-cli/src/commands/count.rs: Count::execute", "crates/pica-cli/src/commands/slice.rs: Slice::execute", "crates/pica-cli/src/commands/filter.rs: Filter::execute", "crates/pica-cli/src/commands/hash.rs: Hash::execute"]}
{"id": "C68", "title": "Check: rule sets are loaded and reports written", "statement": "The reports of check are written to a table with one header and one row per report (record number, rule, level, message) in the order of the reports, comma separated unless the file name asks for tabs, or to a text file with the record number of each report on a line of its own. A rule set is loaded exactly if every file an allow rule refers to can be read and has the column it names; then every rule is kept in order under its name, and an allow rule accepts exactly the values of that column.", "quantifier": "all file names, reports, rule sets and tables", "why_tests_cant": "every sequence of reports and every rule set with any tables; a run without reports is easily overlooked", "anchors": ["crates/pica-cli/src/commands/check/writer/mod.rs: Writer", "crates/pica-cli/src/commands/check/set.rs: RuleSet::new", "crates/pica-cli/src/commands/check/rule.rs: Rule::initialize", "crates/pica-cli/src/commands/check/checks/allow.rs: Allow::initialize"]}
{"id": "C69", "title": "Constructors of single kinds of matchers", "statement": "Each kind of subfield matcher without operators (exists, relation, contains, regex, regex set, in, cardinality) and of field matcher (exists, subfields, cardinality) has a constructor of its own. A text is accepted by at most one of them, the kind can be seen from the result, the singleton constructors accept exactly what one of them accepts with the same result, and SubfieldMatcher::new and FieldMatcher::new accept what any of them accepts with the same meaning: no alternative of the parsers hides another.", "quantifier": "all texts and kinds, all group counters (for fields: counter of subfield groups zero)", "why_tests_cant": "exclusion of ordered alternatives must hold for every text, including odd white space and codes that look like quantifiers", "anchors": ["src/matcher/subfield/mod.rs: *Matcher::new", "src/matcher/field/mod.rs: *Matcher::new", "src/matcher/subfield/parser.rs: parse_singleton_matcher", "src/matcher/field/parser.rs: parse_singleton_matcher"]}
{"id": "C70", "title": "Owned records are faithful copies", "statement": "The owned types Tag, Occurrence, Subfield, Field and Record accept exactly the arguments that their borrowed counterparts accept; converting a borrowed value loses nothing; the mixed comparisons hold iff the owned value is the copy of the borrowed one; the copy writes the same bytes, and what an owned record built from constructed fields writes is read back as an equal record. contains, find and the names of levels do what they say.", "quantifier": "all borrowed and owned records, all arguments of the constructors", "why_tests_cant": "equality is implemented five times by hand across two families of types; the claim is about all pairs of values, including different lengths and missing occurrences", "anchors": ["src/primitives/field.rs: Field::new, From, PartialEq, contains, find", "src/primitives/record.rs: Record, From, PartialEq, write_to", "src/primitives/subfield.rs: Subfield, SubfieldValue", "src/primitives/occurrence.rs: Occurrence", "src/primitives/tag.rs: Tag, Level::from_str"]}
{"id": "C71", "title": "Parsing terminates with bounded nesting", "statement": "Parsing a matcher or a format terminates on every text: the functions that parse groups and negations call each other only on shorter input, and the loops end. Since open groups are limited (255 for matchers, 31 for formats), the number of nested calls is bounded by a constant, whatever the text.", "quantifier": "every text and every state of the thread-local counters", "why_tests_cant": "termination and stack depth are about all texts of all lengths; the functions are mutually recursive", "anchors": ["src/matcher/subfield/parser.rs: parse_subfield_group_matcher, parse_subfield_not_matcher, group_level_inc", "src/matcher/field/parser.rs: parse_field_group_matcher, parse_field_not_matcher, group_level_inc", "src/fmt/parser.rs: parse_group, group_level_inc"]}
{"id": "C72", "title": "Inputs in pieces, and inputs that fail", "statement": "How an input is delivered makes no difference: the sizes of the pieces read and interrupted reads are invisible. If an input cannot be opened, or reading it fails (a damaged gzip file), a command does exactly what it does with the complete lines that have arrived before, then ends with an error, also with --skip-invalid, unless it needs no more input; the incomplete line is never treated as a record. The exit status is 2.", "quantifier": "every sequence of results of read (pieces of any size, interruptions, failures), every list of inputs, every command and all its options", "why_tests_cant": "failures can occur at any byte of any input and pieces can have any size; tests read a few intact files", "anchors": ["src/reader.rs: Reader::next_byte_record, ReadPicaError::skip_parse_err, ReaderBuilder::from_path", "crates/pica-cli/src/commands/*.rs: execute", "crates/pica-cli/src/commands/invalid.rs: Invalid::execute", "crates/pica-cli/src/error.rs: CliError"]}
{"id": "C73", "title": "Writer options and standard output", "statement": "Without an output path the records go to standard output and no file is touched; as the documentation says, the flags gzip and append have no effect there. With a path nothing goes to standard output. A command that reads this standard output from its standard input gets exactly the records written.", "quantifier": "every builder state, every list of records, every state of the files, every compression", "why_tests_cant": "the claim is about all records, all flag combinations and any compression function", "anchors": ["src/writer.rs: WriterBuilder::from_path_or_stdout, gzip, append", "src/reader.rs: ReaderBuilder::from_path"]}
{"id": "C74", "title": "A command that succeeds has written its output", "statement": "Outputs may take the data in parts, interrupt calls and fail at any call (full disk, closed pipe). What arrives is always a beginning of what the command writes. If no call fails everything arrives; and if the command ends with status 0, everything has arrived, or the reader has closed the pipe: an error while writing is never overlooked.", "quantifier": "every sequence of results of write, every division of the output into pieces, every size of the buffers, every way in which the commands write (plain, gzip, XML, CSV, unbuffered; file or standard output)", "why_tests_cant": "failing devices are not tested, and the failure may happen at any of the calls, in particular when a buffer is dropped", "anchors": ["src/writer.rs: PlainWriter::finish, GzipWriter::finish", "crates/pica-cli/src/commands/convert/xml.rs: XmlWriter", "crates/pica-cli/src/commands/count.rs", "crates/pica-cli/src/commands/check/writer/mod.rs", "crates/pica-cli/src/main.rs"]}
{"id": "C75", "title": "The tables that are written can be read back", "statement": "The CSV and TSV outputs of select, frequency, hash and check can be read back: the text belongs to the grammar of RFC 4180, which has only one reading, and this reading is the header and the rows of the command, whatever the values contain, for each style of quoting. A header makes no difference to the rows and does not let the command fail.", "quantifier": "every query, every input, every header, every style of quoting, both delimiters, every set of cells that are taken for numbers", "why_tests_cant": "values may contain delimiters, quotes and line ends at any place; that the text has one reading only is a statement about all pairs of tables", "anchors": ["crates/pica-cli/src/commands/select.rs: Quotes, Select::execute", "crates/pica-cli/src/commands/frequency.rs: Frequency::execute", "crates/pica-cli/src/commands/hash.rs: Hash::execute", "crates/pica-cli/src/commands/check/writer/mod.rs: CsvWriter, TxtWriter"]}
{"id": "C76", "title": "The XML output is a document with the data of the records", "statement": "If convert --to xml ends well, its output is a well-formed XML 1.0 document in UTF-8 that has only one reading, and an XML processor gets from it the tags, codes and values of the records, in their order.", "quantifier": "every input, every value (including markup characters, quotes, control characters and carriage returns), every escaping function that obeys the rules of XML", "why_tests_cant": "well-formedness and the unique reading are statements about all texts, and the values may contain any bytes but the separators", "anchors": ["crates/pica-cli/src/commands/convert/xml.rs: XmlWriter::new, write_byte_record, finish", "tests/data/ada.xml"]}
{"id": "C77", "title": "The JSON output is a JSON text with the records", "statement": "What convert --to json has written when it ends well is a JSON text (RFC 8259): it has exactly one value, which lists the records of the input in their order, each with all fields, tags, occurrences, codes and values. If the command ends with an error, what it has written is not a JSON text, so that an incomplete output is never taken for a complete one.", "quantifier": "every input, every number of records, every value (quotes, backslashes, control characters, any UTF-8)", "why_tests_cant": "the escapes of all characters in all positions, the commas between any number of records, and every place where the output may be cut", "anchors": ["crates/pica-cli/src/commands/convert/json.rs: JsonWriter", "crates/pica-cli/src/commands/convert/mod.rs: Convert::execute"]}
{"id": "C78", "title": "The configuration is kept between runs", "statement": "After any sequence of config commands, every later command works with the value of each option that was set last (the default, if it was unset or never set), and config prints it; setting one option does not change the other. A configuration file that cannot be read is reported and left as it is.", "quantifier": "all sequences of config commands with all arguments, every file at the beginning, every way in which saving may end", "why_tests_cant": "tests make one or two calls on a file that the program has written; files written by hand, files that cannot be read and saving that fails in between are not covered", "anchors": ["crates/pica-cli/src/config.rs: Config", "crates/pica-cli/src/main.rs: run", "crates/pica-cli/src/commands/config.rs: Config::execute"]}
{"id": "C79", "title": "A rule file is used as it is written", "statement": "check works with exactly the rules of the rule files: each table [rule.NAME] is a rule of this name with the check, the options, the level and the tags that are written there, options left out have their documented defaults, and scope and termination are those of the file. A file that says something else is rejected with an error before any record is read, and no entry of a file is ignored silently.", "quantifier": "all texts of rule files, all tables that TOML can express, all allow lists, whatever expressions were parsed before", "why_tests_cant": "tests load a few correct files; every key, type and default of nine checks in every combination, and every misspelling, are not covered", "anchors": ["crates/pica-cli/src/commands/check/set.rs: RuleSet::new", "crates/pica-cli/src/commands/check/rule.rs: Rule", "crates/pica-cli/src/commands/check/checks/*.rs", "crates/pica-cli/src/commands/check/mod.rs: Check::execute"]}
{"id": "C80", "title": "The table of one command is a list for another", "statement": "A table that hash, select or check writes can be given to --allow or --deny of a command, or to the check allow: it is read in the format in which it was written, and the list has exactly the values of the chosen column, so that hash with a filter followed by a command with --allow selects the records that the filter selects. The format in which check and describe write follows from the options and from the name of the file, and the options prevail.", "quantifier": "all tables, all cells, all names of files, all inputs and filters, every reader of tables that reads CSV and TSV faithfully", "why_tests_cant": "tests read fixed lists; that quoted cells come back, and that the suffix rules of writers and readers agree for all names, is a statement about all cells and names", "anchors": ["crates/pica-cli/src/utils.rs: read_filter_list, FilterSet", "crates/pica-cli/src/commands/check/writer/mod.rs", "crates/pica-cli/src/commands/describe.rs: execute", "crates/pica-cli/src/commands/hash.rs", "crates/pica-cli/src/commands/select.rs"]}
{"id": "C81", "title": "Filter options mean the same in every command", "statement": "Every command with filter options (check, count, describe, explode, filter, frequency, hash, partition, print, sample, select, slice, split), started with the same options and configuration, processes the same records: those whose values at the path of --filter-set-source pass the lists, and for which the expressions of --where, --and, --or and --not (for filter: the expression) hold as asked. --ignore-case and --strsim-threshold (the minimum score) hold in all expressions of the command line, including queries and paths; the configured normalization is applied to all of them; --limit bounds the number of records; --skip-invalid is in force if the option or the configuration asks for it. The meaning of an expression does not depend on which command parses it nor on what was parsed before.", "quantifier": "all option values, all expressions, paths, queries and lists, all configurations, all inputs, all states of the parsers", "why_tests_cant": "options are passed on by hand in thirteen commands and through three option types; tests combine few options and few commands, and a dropped option only shows for particular values", "anchors": ["crates/pica-cli/src/cli.rs: FilterOpts", "crates/pica-cli/src/utils.rs: FilterSetBuilder", "crates/pica-cli/src/commands/*.rs: execute", "src/matcher/options.rs: MatcherOptions", "src/query.rs: QueryOptions", "src/fmt/mod.rs: FormatOptions"]}
{"id": "C82", "title": "Filtering first and filtering within a command are the same", "statement": "The output of filter EXPRESSION with lists and options is read by the next command of a pipeline as exactly the requested records, with no invalid line. Therefore filter .. | COMMAND gives the same result as COMMAND with the same filter options, for hash, count, print, split, sample, describe, select, frequency, partition, check, slice and explode; two filters in a row give the records that both request, in either order, and filter A | filter B is filter A --and B.", "quantifier": "all inputs with valid and invalid lines, all expressions, lists, options and configurations, all arguments of the second command, all states of the parsers", "why_tests_cant": "no test compares a pipeline with the same command with options; equality must hold for every input and every combination of options and commands", "anchors": ["crates/pica-cli/src/commands/filter.rs: execute", "crates/pica-cli/src/commands/*.rs: execute", "src/io/writer: ByteRecordWrite", "src/io/reader: RecordsIter"]}
{"id": "C83", "title": "The effort of parsing an expression is polynomial in its length", "statement": "The number of times FieldMatcher::new tries to read a group in parentheses is bounded by a polynomial in the length of the expression whose degree does not depend on the nesting of parentheses.", "quantifier": "all expressions, accepted or not, all nesting depths up to the limit", "why_tests_cant": "tests use at most two levels of parentheses; the growth shows only as a function of the depth, and an upper bound must hold for every text", "anchors": ["src/matcher/field/parser.rs: parse_field_group_matcher, parse_field_not_matcher, parse_field_and_matcher, parse_field_xor_matcher, parse_field_or_matcher, parse_field_composite_matcher", "src/matcher/field/mod.rs: FieldMatcher::new"]}
{"id": "C84", "title": "partition and split write only into the output directory", "statement": "Every file that partition or split creates is an entry of the directory given by --outdir.", "quantifier": "all values of subfields, all templates that are plain file names, all output and working directories", "why_tests_cant": "the values of the test data are short codes without slashes; the claim is about every value that can occur in a subfield", "anchors": ["crates/pica-cli/src/commands/partition.rs: Partition::execute (filename, path)", "crates/pica-cli/src/commands/split.rs: Split::execute"]}
{"id": "C85", "title": "Printed parts are read back", "statement": "The text that Display prints for a tag, an occurrence (borrowed or owned), a relational operator or a quantifier is read back as the same value, and no other text is read as it. The printed tag of a field followed by its printed occurrence is a field predicate that addresses exactly the fields with this tag and occurrence.", "quantifier": "all tags, occurrences, operators, quantifiers and fields", "why_tests_cant": "the tests print single values and never read the printed text; that no other text is read as the same value is a claim about all texts", "anchors": ["src/primitives/tag.rs: Display, PartialEq", "src/primitives/occurrence.rs: Display for OccurrenceRef and Occurrence, new", "src/matcher/operator.rs: Display, parse_relational_operator", "src/matcher/quantifier.rs: Display, parse_quantifier", "crates/pica-cli/src/utils.rs: parse_predicates"]}
{"id": "C86", "title": "The order of the records and their division into files do not matter", "statement": "If the same records are given in another order and divided into other files, and both runs end without error, then without a limit count, describe and frequency write the same, select, hash, print, filter, concat, partition and check write the same rows, blocks, records or reports, each as often. If only the division into files differs, the result is exactly the same, also with a limit.", "quantifier": "all inputs with the same valid records, all permutations, all iteration orders of the hash maps", "why_tests_cant": "the tests run every command on one fixed file; the claim relates the runs on all permutations and divisions of all inputs", "anchors": ["crates/pica-cli/src/commands/count.rs: execute", "crates/pica-cli/src/commands/describe.rs: execute", "crates/pica-cli/src/commands/frequency.rs: execute", "crates/pica-cli/src/commands/select.rs: execute", "crates/pica-cli/src/commands/hash.rs: execute", "crates/pica-cli/src/commands/print.rs: execute", "crates/pica-cli/src/commands/filter.rs: execute", "crates/pica-cli/src/commands/concat.rs: execute", "crates/pica-cli/src/commands/partition.rs: execute", "crates/pica-cli/src/commands/check/mod.rs: execute"]}
{"id": "C87", "title": "The progress bar counts the lines read", "statement": "Showing the progress bar does not change what a command writes or how it ends. At the end the bar shows the number of valid lines as records and the number of invalid lines as invalid, among the lines that have been read: all lines unless a limit was reached, and the lines before the offending one if the command ends with an error. Numbers are shown with a comma before each group of three digits, and the counters can be read off the message.", "quantifier": "all commands with a record loop, all files, with and without --skip-invalid, all numbers", "why_tests_cant": "the tests do not look at the bar at all, and the claim relates two runs for every input", "anchors": ["crates/pica-cli/src/progress.rs: Progress::update", "crates/pica-cli/src/commands/concat.rs: execute", "crates/pica-cli/src/commands/invalid.rs: execute", "crates/pica-cli/src/commands/count.rs: execute"]}
{"id": "C88", "title": "Byte strings become text by replacing the maximal ill-formed parts", "statement": "The text made of a byte string (keys of concat --unique, file names of partition, IDNs in hash, values in JSON, messages of the checks) is the one the Unicode standard recommends: valid characters are kept and each maximal subpart of an ill-formed sequence becomes one U+FFFD. It is always valid UTF-8, equal to the string exactly if that is valid, empty only for the empty string, and ASCII characters are kept in number and order; decoding can be cut at ASCII characters. Hence JSON output is always a JSON text and partition files of values without a slash stay in the output directory, but different values can have the same text.", "quantifier": "all byte strings", "why_tests_cant": "the tests hold one or two strings that are not UTF-8; the claim is about all sequences of bytes, including truncated and overlong ones", "anchors": ["crates/pica-cli/src/commands/concat.rs: record_key", "crates/pica-cli/src/commands/partition.rs: execute", "crates/pica-cli/src/commands/hash.rs: execute", "crates/pica-cli/src/commands/convert/json.rs: write_byte_record", "src/matcher/subfield/mod.rs: RelationMatcher::is_similar"]}
{"id": "C89", "title": "White space around the components of lists is ignored", "statement": "str::trim removes exactly the Unicode white space at both ends, once for all. Hence the comma-separated lists of the command line (field predicates of --keep and --discard, --header, --tags of check) mean the same with any white space around their components, a printed tag and occurrence with white space around it is a predicate for exactly the fields with this tag and occurrence, and a format value with the modifier for trimming has no white space at its ends.", "quantifier": "all texts and byte strings, all lists of components, all white space", "why_tests_cant": "tests hold a blank or two; the claim is about every white space character, any number of them, and values that are no text", "anchors": ["crates/pica-cli/src/utils.rs: parse_predicates", "crates/pica-cli/src/commands/select.rs: execute", "crates/pica-cli/src/commands/frequency.rs: execute", "crates/pica-cli/src/commands/hash.rs: execute", "crates/pica-cli/src/commands/check/mod.rs: execute", "src/fmt/mod.rs: Modifier::modify"]}
{"id": "C90", "title": "Values are similar if their score is above the threshold", "statement": "The comparison =* holds for two values exactly if one less the least number of characters that have to be inserted, removed or replaced to make one of the other, divided by the length of the longer text, is more than the threshold (in per cent with --strsim-threshold, 80 per cent in rules). It is symmetric, holds for equal texts and does not depend on the rounding of floating point numbers.", "quantifier": "all values (byte strings) with fewer than 2^40 characters, all thresholds from 0 to 99", "why_tests_cant": "the tests compare a few names; rounding matters only if score and threshold are equal, and then for twenty of the hundred thresholds", "anchors": ["src/matcher/subfield/mod.rs: RelationMatcher::is_similar", "crates/pica-cli/src/cli.rs: From<&FilterOpts> for MatcherOptions", "src/matcher/options.rs: MatcherOptions::new"]}
{"id": "C91", "title": "The feature compat adds the $ of PICA Path and changes nothing else", "statement": "Every filter, path, format and query that is accepted without the crate feature compat is accepted with it and means the same; a text without $ is also rejected alike. With the feature, $ and codes may be written wherever a dot and codes, or codes in braces, may be written: 003@$ab is the path 003@.[ab], 028A{$d, $a | $4 == 'x'} is 028A{d, a | 4 == 'x'}, 003@$ab == 'x' is 003@.[ab] == 'x'.", "quantifier": "all texts, tags, occurrences, lists of codes, filters, all states of the counters of nesting", "why_tests_cant": "the tests of the feature are five queries and two matchers; that no old text changes its meaning is a statement about all texts, and $ is also part of the operators =$ and !$ and of the list operator of formats", "anchors": ["src/parser.rs: parse_subfield_codes_compat", "src/path.rs: parse_path_simple, parse_codes", "src/matcher/subfield/parser.rs: parse_relation_matcher, parse_contains_matcher", "src/matcher/field/parser.rs: parse_subfields_matcher_dollar, parse_field_exists_matcher"]}
{"id": "C92", "title": "With fast termination the first rule that applies ends the work on a record", "statement": "In a rule set with termination = 'fast', a record in scope is reported by the first wanted rule (in the order of the set) that applies to it and by no other; without it, by all that apply. Each rule thus reports what it reports alone, asked for the records to which no wanted rule before it applies. Fast termination loses reports, but no reported record.", "quantifier": "all rule sets, scopes, filters of rules, and inputs", "why_tests_cant": "the tests hold one rule set with two rules; the claim is about every set, any position of the rule that applies, rules that are filtered out, and rules with a state that lives on over the records", "anchors": ["crates/pica-cli/src/commands/check/set.rs: RuleSet::check", "crates/pica-cli/src/commands/check/rule.rs: Rule::check", "crates/pica-cli/src/commands/check/mod.rs: execute", "docs/book/commands/check.qmd: termination"]}
{"id": "C93", "title": "convert rewrites the separators of the valid lines", "statement": "If convert ends without error, its output is determined byte by byte by the valid lines of the input: --to plus writes them unchanged; --to binary writes them with 0x1D instead of every line feed (and putting line feeds for 0x1D gives them back exactly if they contain no 0x1D); --to plain writes $ for the subfield separator, $$ for a dollar sign, a line feed for the field separator and nothing for the line feed; --to import writes for every record an apostrophe, 0x1D and a line feed, and then every field between 0x1E and a line feed.", "quantifier": "all inputs, valid and invalid lines in any files, all records and values", "why_tests_cant": "the tests compare the output for a few sample records; the claim fixes every byte of the output for all inputs, also for values with dollar signs, control characters and invalid UTF-8", "anchors": ["crates/pica-cli/src/commands/convert/mod.rs: execute", "crates/pica-cli/src/commands/convert/binary.rs: write_byte_record", "crates/pica-cli/src/commands/convert/import.rs: write_byte_record", "crates/pica-cli/src/commands/convert/plain.rs: write_byte_record"]}
{"id": "C94", "title": "No input makes a command panic", "statement": "A command whose arguments, expressions and rule files have been accepted never panics, whatever bytes its input files hold: it ends normally if invalid lines are skipped or absent, and otherwise normally or with the message for the first invalid line. Exceptions: print panics on a value of a selected record that is not UTF-8, convert --to xml on any value that is not UTF-8, concat --unique by IDN on a record without IDN, and every command if an accepted regular expression does not compile with the options given.", "quantifier": "all command lines, configurations, rule files and input files (arbitrary bytes)", "why_tests_cant": "a panic needs one particular combination of options, rule file and bytes; tests run a few combinations on well-formed records, while the claim excludes a panic for every input and every accepted command line", "anchors": ["crates/pica-cli/src/commands/: execute", "crates/pica-cli/src/commands/check/set.rs: RuleSet::check", "crates/pica-cli/src/commands/explode.rs: execute", "crates/pica-cli/src/commands/sample.rs: execute", "crates/pica-cli/src/commands/print.rs: execute", "crates/pica-cli/src/commands/convert/xml.rs: write_byte_record", "crates/pica-cli/src/commands/concat.rs: execute"]}
{"id": "C95", "title": "Options divide and join the records", "statement": "A list given once with --allow and once with --deny divides the records that pass without it: every one of them passes exactly one of the two. Several allow lists pass the records that pass one of them, several deny lists those that pass all, and allow and deny lists together those that pass each. --where X --or Y selects the union, --where X --and Y the intersection and --where X --not Y the difference. So the records, fields and subfields counted by count add up: allow and deny to all, X and Y to the union and the intersection, and --and and --not to X.", "quantifier": "all option values, list files, expressions, configurations and input files", "why_tests_cant": "a test compares a few runs on one file; the claim relates the results of several runs on the same arbitrary files, with repeated and missing values and arbitrary paths, expressions and lists", "anchors": ["crates/pica-cli/src/utils.rs: FilterSetBuilder, FilterSet::check", "crates/pica-cli/src/cli.rs: FilterOpts::matcher", "crates/pica-cli/src/commands/count.rs: execute"]}
{"id": "C96", "title": "Several runs with --append are one run", "statement": "With --append the output of a run follows what was in the file, without it the file is replaced, and other files are not touched. Runs of filter, concat or select with --append, each with a part of the input files, leave the same output file and the same tee file as one run with all of them, and succeed if and only if it does; count adds one report for each run. Exceptions: a limit holds for each run, --unique forgets the runs before, select writes its header in each run, and of a file whose name ends with .gz only what the first run has written is read back.", "quantifier": "all commands with these options, all divisions of the input into runs, all contents of the files before", "why_tests_cant": "a test appends once to one file; the claim covers any number of runs, any division of the input files, output and tee files together, and which options spoil it", "anchors": ["src/writer.rs: WriterBuilder::from_path", "crates/pica-cli/src/commands/filter.rs: execute", "crates/pica-cli/src/commands/concat.rs: execute", "crates/pica-cli/src/commands/select.rs: writer, execute", "crates/pica-cli/src/commands/count.rs: execute"]}
{"id": "C97", "title": "The built-in code lists are complete", "statement": "The check iso639-2b accepts exactly the bibliographic codes of ISO 639-2 without the range qaa-qtz: of the languages with two codes the bibliographic one and not the terminological one, and no code is missing, misspelt or listed twice. A record without empty values is reported if and only if some value is not such a code. The list of the check jelc has the form of a classification: every code is a capital letter with one or two digits, and the list has a category (letter and one digit) if and only if it has a code that continues it. Exception: the category Z0 is missing although Z00 is in the list.", "quantifier": "all values, records and paths", "why_tests_cant": "a test tries some codes; the claim is about every string, so one missing, added or misspelt code among 1490 breaks it", "anchors": ["crates/pica-cli/src/commands/check/checks/iso639.rs", "crates/pica-cli/src/commands/check/checks/jelc.rs"]}
{"id": "C98", "title": "A run with --limit is the beginning of the run without", "statement": "With --limit a command does what it does without or with a larger limit, up to the point where the limit is reached: the output of filter (and its tee file), select, print, hash, explode and slice with a smaller limit is a beginning of the output with a larger limit or with none, every file of partition and of split has the beginning of its content, and frequency and describe count nothing more often; without link rules the reports of check are a beginning, too. filter or explode --limit n writes what filter or explode piped into slice --end n writes, if no record loses all its fields. select, print, hash, frequency, describe, split, sample and check with --limit n do what they do without with the output of filter --limit n (partition, explode and slice do not, they count what they write). If the run without limit succeeds, so does the run with limit; if the run with limit fails, the other fails in the same way. There are at most so many results. Once the limit is reached the rest of the input is not looked at: further lines, valid or not, and further files change nothing, in any of the twelve commands. Exceptions: check with a link rule reports more with a limit, because the linked records are not read, the sample with a limit is not part of the sample without, and split with a template without braces (or with 2^32 records) overwrites chunks.", "quantifier": "all commands with --limit, all limits, options and input files, valid or not", "why_tests_cant": "a test runs a command with one limit on one file; the claim compares runs with all limits, on all inputs, including runs that fail after the limit", "anchors": ["crates/pica-cli/src/commands/filter.rs: execute", "crates/pica-cli/src/commands/select.rs: execute", "crates/pica-cli/src/commands/explode.rs: execute", "crates/pica-cli/src/commands/partition.rs: execute", "crates/pica-cli/src/commands/slice.rs: execute", "crates/pica-cli/src/commands/check/mod.rs: execute"]}
{"id": "C99", "title": "Slices that follow each other give the whole", "statement": "Runs of slice with --start and --end over the same files, where every range begins where the one before ends, each appended to the same file with --append, leave in this file all selected records from the first start to the last end, each once and in order; if the last run has no end, all selected records from the first start on. Pages with --start i*n --length n give the first k*n selected records. A slice of the output of a slice is the slice of the input with both starts added. Other files are not changed. Exceptions: with --skip-invalid the pages with --length overlap after an invalid line, and a range with --end 0 is not empty but has no end.", "quantifier": "all input files, selections, cuts, page sizes and earlier contents of the output file, for runs that succeed", "why_tests_cant": "a test compares a few slices of one file; the claim is about every way to cut every input into any number of slices", "anchors": ["crates/pica-cli/src/commands/slice.rs: execute", "src/writer.rs: WriterBuilder::from_path"]}
