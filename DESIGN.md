# Formal model of pica-rs in Lean 4

The model is a set of total, computable Lean functions that follow the Rust
source function by function.  Every definition cites the file and lines it
models.  Properties (`properties.jsonl`) are stated against small separate
specifications and proved for all inputs.  Where a property is false of the
code, the negation is proved with a concrete witness (suffix `_false`), and
what remains true is proved beside it (suffix `_partial` if hypotheses or parts
of the statement are missing).

## Layout

* `lean/Verif/Base/`     bytes, winnow combinators (pure, and with the thread-local counters as state), lists, orders
* `lean/Verif/Model/`    the model, one file per Rust module or command
* `lean/Verif/Spec/`     independent specifications (grammars, relations)
* `lean/Verif/Lemmas/`   helper lemmas
* `lean/Verif/Props/`    the property theorems `Pica.Props.Cnn_*`, each with an `example` that meets its hypotheses
* `lean/Verif/Conformance/` the tests of the repository, evaluated on the model
* `conformance/`         the scripts that translate them
* `seeded/LOG.jsonl`     edits of the model (realistic bugs) and the theorems that fail under them
* `MANIFEST.json`        property -> theorems and status

## Trusted base

* Lean's kernel.  Axioms: every theorem depends on at most `propext`,
  `Classical.choice`, `Quot.sound`.  No axioms are added; no `sorry`,
  `native_decide` or `bv_decide`.
* The reading of the code.  It is read as text and never run.
* winnow 1.0, as described in `Base/Bytes.lean` and `Base/TParser.lean`:
  `.parse` needs the whole input; no parser of the crate cuts; `alt`, `opt`,
  `repeat` and `separated` reset the input but not side effects;
  `separated` gives back the separator if no item follows; `repeat` fails on a
  parser that succeeds without consuming.
* The standard library: `read_until`, `Vec::retain`, sorting, hash sets and
  maps as sets and finite maps (iteration order is an arbitrary permutation
  chosen by a parameter), `str::trim_ascii`, `split`, `find`;
  `BufWriter`, `LineWriter` (in `Stdout`) and `write_all` as in `Model/Output`.
* toml: `toml::to_string` of a configuration is read by `toml::from_str` as the document `Config.doc` (`Toml.written`); nothing else is assumed of reading TOML: for rule files the parameter `toml` gives the table.
* serde: derived `Deserialize` of structs (keys in kebab case, `default`, `flatten`, internally tagged enums, unknown keys ignored) as in `Model/RuleFile`; a flattened or tagged value is read from the remaining entries.
* serde_json: compact output and the escapes of strings, as in `Model/Convert` (`jsonEscape`, `jsonArray`).
* quick_xml 0.41: `Writer` as in `Model/XmlText`; escaping is only assumed to obey `Escaping`.
* polars: the readers are the parameter `ListReader`; C80 assumes of it only `Faithful`, that a text of the csv crate is read back; the assumption can be met (`idealReader_faithful`).
* csv 1.4: `csv::Writer` as in `Model/Csv`; which cells are numbers is left open.
* Build configuration: the feature `compat` is off (its parsers are in `Model/Compat`,
  see C91), release profile without overflow checks (arithmetic wraps; where
  wrapping can happen with realistic option values the model wraps, e.g. slice
  and split), `panic = "abort"` (a panic is the value `none` or
  `LoopResult.panic`).

### Agreement with the tests of the repository

The code is not run, but its unit tests say what it does.  `Verif/Conformance` has the 551 assertions
of the unit tests in `src/` (all of those outside the feature `compat`; those of the feature are examples in `Props/Compat`), translated by a script and
evaluated on the model by the kernel (`decide +kernel`).  They are tests of the model, not proofs, and
no claim rests on them.  `Conformance/Base` has computable stand-ins for the oracles: lower case of
ASCII, regular expressions by derivatives; similarity, trimming and the text of a byte string are those
of the model.  All assertions hold of the model.

The tests that run the program (`crates/pica-cli/tests`, 326 tests with 588 calls) were interpreted by a
script that reads the test code, parses the arguments as clap does, keeps the files, and asks the model
(`Conformance/Commands`, `Req.run`) for the output of each call; normal forms, digests, dates, TOML and
lists come from tables.  317 tests hold of the model.  The other nine are outside of it: six of shell
completions, two of the pretty-printed table of `describe`, and one that fixes the numbers drawn from a
seed.  One call per test is evaluated by the kernel as well, if its files are small (175 calls, in
`Conformance/Check`, `FilterCmd`, `SelectCmd`, `OtherCmds`).  Messages on standard error are not compared.
The scripts are in `conformance/`.

### Parameters (oracles)

Theorems hold for every choice of these functions; where a theorem needs an
assumption about them, it is a hypothesis.

| parameter | stands for | used in |
|---|---|---|
| `Env.lower`, `FmtEnv.upper/trim` | `str::to_lowercase` etc. on lossy text | case-ignore, formats |
| `Env.similar` | `normalized_levenshtein(..) > threshold`; `Model/Similar` defines it, see C90 | `=*` |
| `Env.regex`, `regexSet` | the regex crate; `none` = does not compile with the options in force | `=~`, `!~` |
| `rx` (parsers) | "the regular expression compiles" at parse time | matcher parsers |
| `World.above`, `percent`, `score` | `f64` comparison, division by 100, `normalized_levenshtein`; `World.float` of `Model/Similar` defines them | C81, C90 |
| `sha`, `hash` | SHA-256, the 64-bit row hash of select | C11, C32, C46, C52 |
| `lossy` | `to_string` of a byte string; `Model/Lossy` defines it and `C88_assumptions` proves what is assumed | names, keys, messages |
| `translit` / `text` | Unicode normalisation | C46 |
| `iter` | iteration order of a hash map | C36, C40, C45, C50 |
| random stream | `rng.random_range` | C35 |
| `Gzip` | flate2; `read::GzDecoder` reads the first member | C43, C49 |
| `parses` | `jiff` date parsing with the format of the rule | C56 |
| `normalised` | the test of a normalization form | C55 |
| `trim` | `str::trim`; `Model/Trim` defines it, C89 says what it does | C53, C58, formats |

### Modelled

| code | model |
|---|---|
| `src/primitives/*.rs` (parsers, constructors, writers, level, validate) | `Model/Record`, `Model/Utf8` |
| `src/record.rs` | `Model/ByteRecord` |
| `src/reader.rs` | `Model/Reader`, gzip/stdin selection in `Model/Writer`, sources that fail in `Model/Stream` |
| `src/writer.rs` | `Model/Writer` |
| `src/matcher/tag.rs`, `occurrence.rs` | `Model/TagMatcher` |
| `src/matcher/operator.rs`, `quantifier.rs`, `src/parser.rs` | `Model/Lexical` |
| `src/matcher/subfield/mod.rs`, `field/mod.rs`, `record.rs`, `builder.rs` | `Model/Matcher` |
| `src/matcher/subfield/parser.rs` | `Model/SubParser` |
| `src/matcher/field/parser.rs` | `Model/FieldParser` |
| `src/path.rs`, `src/fmt/*`, `src/query.rs` | `Model/Path`, `Model/Format`, `Model/Query` |
| `Display` implementations of matchers, path, query, format | `Model/Display` |
| `crates/pica-cli/src/utils.rs` | `Model/Command` (FilterSet), `Model/Predicates`, `Model/Args` (filter lists) |
| `crates/pica-cli/src/main.rs`, `error.rs` (exit status) | `Model/Exit` |
| `crates/pica-cli/src/commands/check/writer/mod.rs`, `set.rs` (`RuleSet::new`), `checks/allow.rs` (`initialize`) | `Model/CheckOutput` |
| `src/matcher/subfield/mod.rs`, `src/matcher/field/mod.rs` (constructors of single kinds) | `Model/Construct` |
| `src/primitives/{tag,occurrence,subfield,field,record}.rs` (owned types) | `Model/Owned` |
| `Display` and comparison of tags, occurrences, operators, quantifiers | `Model/Parts` |
| `crates/pica-cli/src/cli.rs`, `translit.rs`, `commands/config.rs`, arguments of `commands/filter.rs` | `Model/Args` |
| `crates/pica-cli/src/config.rs`, beginning of `main.rs` (`run`) | `Model/ConfigFile` |
| `crates/pica-cli/src/commands/*.rs` | `Model/FilterCmd`, `Explode`, `Split`, `Concat` (with invalid), `Partition`, `Slice`, `Sample`, `Frequency`, `Select`, `Count`, `Print` (with hash), `Describe` |
| `crates/pica-cli/src/commands/convert/*` | `Model/Convert` |
| paths and shared files in `commands/partition.rs`, `split.rs` | `Model/Place` |
| `src/matcher/options.rs`, `QueryOptions`, `FormatOptions`, `FilterOpts` (`cli.rs`), beginning of `execute` in the commands with filter options | `Model/Execute` |
| `crates/pica-cli/src/utils.rs` (`read_filter_list`), `commands/describe.rs` (formats) | `Model/ListFile` |
| `crates/pica-cli/src/progress.rs` | `Model/Progress` |
| `crates/pica-cli/src/commands/check/*` | `Model/Check`, `Model/CheckCodes`; reading rule files in `Model/RuleFile` |

### Not modelled

clap argument parsing (only the accepted flag combinations are used),
the drawing and the rate of the progress bar, completions, reading tables through polars (a table is a
list of named columns with optional cells), the syntax of TOML (a file is a table, given by a parameter), the file system beyond "a name has contents"
(partition and split: paths and shared files in `Model/Place`; symbolic links, permissions; failing inputs are in `Model/Stream`, failing outputs
in `Model/Output`), quickcheck generators, Unicode tables.

Simplifications that are stated at the definitions: error values are `none`
without their message, except for the reader, whose messages carry the line
numbers of C06; `SmallVec`, `Vec` and slices are lists; a hash set is a list
used only through membership; borrowed and owned variants of a type coincide.

## Properties

Status is in `MANIFEST.json`.  "Spec" names the independent definition the
theorem is stated with.

| id | spec and method | outcome |
|----|------------------|---------|
| C01 | `Spec.Grammar`; each parser is the inverse of its printer on the consumed prefix | proved |
| C02 | printers followed by any terminator parse back; induction over fields and subfields; the constructors accept exactly the well-formed parts (`C02_code`, `C02_value`, `C02_subfield`, `C02_field`, `C02_constructors`, all equivalences) | proved; empty record handled separately |
| C03 | inductive grammar, both directions; also for the single parts | proved |
| C04 | `Spec.Lines` (the cutting into lines, shown unique); induction on the input | proved; `C04_joined`: every command does the same with several files as with one file that holds their contents, up to the message of an error, if each but the last ends with a line feed (`C04_parts`: a case without this condition) |
| C05 | reader and writer | false: a newline inside a value; exact condition proved (`C05_readback_iff`) |
| C06 | reader line counter | byte records proved; string records false (number of the preceding line); exact numbers proved |
| C07 | record loop over any body; refinement to the valid lines | proved; string records: `C07_string` |
| C08 | UTF-8 well-formedness of RFC 3629 (`Spec.Utf8`); ASCII separators cut a valid text; on a string record the `unwrap`s of a path succeed (`C08_path`) and a format and a query yield texts only (`C08_format`, `C08_query`), if case mapping and `trim` map texts to texts (`TextEnv`, true of Rust's `str`) | proved |
| C09 | case analysis on the tag grammar | proved |
| C10 | invariant raw = encoding of fields, over all histories | proved |
| C11 | the same invariant | proved for the listed operations; `DerefMut` breaks it |
| C12 | `Spec.TagPattern`; parser sound and complete | proved |
| C13 | numeric meaning of selectors | false for ranges across widths (`/01-10` matches `099`); `C13_range_exact`: ranges compare decimal fractions |
| C14 | truth tables, also for panicking operands | proved |
| C15 | fold over the calls | proved |
| C16 | `Spec.Expr`: sequences of operands with precedence | false: `a && b ^ c \|\| d` rejected; exact class of rejected sequences, for sequences of all simple matchers (`Spec.Sequence`: `SubOperand`, `FieldOperand`); soundness for all texts; no text has two meanings (`C16_sub_unique`, `C16_field_unique`) |
| C17 | `∃`/`∀` over selected subfields/fields | proved |
| C18 | counting | proved |
| C19 | disjunction | `in` with case-ignore false (Kelvin sign); rest proved; `C19_in_exact` says when they differ |
| C20 | thread-local counters as state, arbitrary histories | false: counters leak after failures, also in formats; what leaks can only change whether a text is accepted, never its meaning (`C20_sub_meaning`, `C20_field_meaning`, `C20_path_meaning`, `C20_format_meaning`) |
| C21 | nesting cost of the parsers; `Parens`, `FieldNest` | subfields false from depth 3 on; fields proved up to the limit, with all simple matchers, braces and negation inside |
| C22 | evaluation with panic as `none` | only regex compilation at evaluation time can panic (witness) |
| C23 | filter/flatMap specification; meaning of path texts | proved; the grammar of paths is unambiguous (`C23_unique`) |
| C24-C26 | `Spec.Query`: product of tables, join | proved |
| C27 | `Spec.Format`: meaning of format texts; `Spec.FormatSeq`: a grammar of accepted formats | proved; every text of the grammar with at most 31 nested groups is accepted, no accepted format nests deeper (`C27_accept`, `C27_depth`); the bound of a group has no effect; the grammar is unambiguous (`C27_unique`): a modifier after `(` belongs to the group, and all modifier letters that follow `?` belong to it |
| C28 | refinement of the loop to filter/map/take | proved |
| C29 | membership | proved |
| C30 | `Spec.Explode`: cuts and pieces | proved |
| C31 | chunk specification | false without `{}` in the template and beyond 2^32 records; `C31_exact` says for every template, chunk size and number of records where the records are cut and what each file holds |
| C32 | first occurrences | false for missing or non-UTF-8 IDNs; rest proved; `C32_unique_idn_exact` says exactly when the command finishes and what it writes; `C32_stages`: the output of a run can take the place of its files |
| C33 | writers per value; `Shared`: a file that several writers have opened, for all orders in which they write their pieces | partial: with `{}` in the template and values in UTF-8 (`C33_files_partial`), exactly for each value whose file name is its own (`C33_own`); false where file names coincide (`C33_names_false`): then records are lost in every order of writing (`C33_lost_false`), each byte of the file comes from one of the writers or is a zero of a gap (`C33_shared`), and the content depends on the order of a hash map (`C33_order_false`) |
| C34 | positions | `--length` false with skipped lines and on 64-bit overflow; with skipped lines, `C34_length_exact` says exactly which records are written and `C34_length_iff` when these are too many |
| C35 | reservoir of positions for every random stream | distinctness proved; uniformity false (off by one); `C35_inclusion` counts all random streams: exact probabilities `(k-1)/(n-1)` for the first `k` records and `k/(n-1)` for the others |
| C36 | exact table, order independent of the hash map | false for `--reverse --threshold` |
| C37 | counting; separators in the raw data | proved |
| C38 | decoders as specification | binary, import proved; plain, json, xml false in part; `C38_plain_exact`, `C38_json_exact`, `C38_xml_exact` say exactly which inputs are given the same output |
| C39 | ISO 7064 MOD 11-2 (`Spec.Isni`) | false for letters and inner `X`; proved on digits; `C39_accepts_exact` for every value |
| C40 | dangling references; permutation of the records | false for one empty value and fast termination; `C40_dangling_exact` without fast termination; `C40_every_set`, `C40_every_dangling` (`Props/LinkFast.lean`) say exactly what is reported in every rule set, also with fast termination: only records for which the rule is asked count |
| C41 | repeated rows | false when joined texts collide |
| C42 | lists | false for a single empty value |
| C43 | builder call sequences; commands | `slice --gzip --append` panics |
| C44 | complementary sublists of the lines | proved; `C44_twice`, `C44_nothing_left`: applied to the output of the other, each command writes nothing, and `invalid` keeps its own output, if every file ends with a line feed; `C44_merged` is a witness without this condition; `C44_joined`: several files or one with their contents |
| C45 | all orders of rules and maps | false for fast termination |
| C46 | rows, first occurrences | false for hash collisions (which exist) and translit; `C46_unique_exact` for every hash function |
| C47 | equality, prefix, suffix, substring | proved |
| C48 | `Spec.Atoms` code lists; sound, complete, unique | proved |
| C49 | file contents through gzip and append | false for appended `.gz`, `--gzip` with other names, `-` |
| C50 | table as a relation, shown unique | proved |
| C51 | text blocks | text and panic condition proved; the text is ambiguous as soon as a field has two subfields (`C51_merged_false`), and determines the records if no value followed by a space contains ` $c ` (`C51_determines_partial`) |
| C52 | rows and digests | proved (digest equality up to SHA-256 collisions) |
| C53 | components of a list | proved |
| C54 | expressions of `Spec.Expr`, sequences of operands | meaning of the printed text proved; reading it back false in general, proved for a large class; if it is accepted it means the same (`C54_sub_meaning`, `C54_field_meaning`) |
| C55 | values of a record, `IsUtf8`; the list of values that are not normalised | proved, also for the command |
| C56 | decomposition of the value at the offset | proved, also for the command |
| C57 | value of the matcher; output of the command `filter` | proved, also for the command |
| C58 | rules that are wanted, parts of the tag text | proved |
| C59 | the argument list | proved except for `--file F x -`, where the code does not read standard input |
| C60 | the texts as expressions (`ParsesTo` of C15), `Asked`, `Admitted`; output of the command | proved |
| C61 | texts of the two options and their values | proved |
| C62 | tables, the used column | proved |
| C63 | `PathBody`, `QueryBody`: the texts and their meanings | proved; the other direction (an accepted text has the meaning written in it) is C23_text, C25_text |
| C64 | the written output of one command read as the input file of the next | proved for the pairs filter/filter, filter/count, concat/filter; hypotheses on options are part of the statements |
| C65 | explode applied to its own output, per record and per command | partial: false for explode local of records with a main field between a copy and a local field (`C65_local_false`); proved for copy, and for local exactly for the records without such a field (`C65_local_iff`) |
| C66 | `FirstBad`: the first invalid line and the input up to it; each command on both inputs; `exitStatus` for main.rs | partial: false for a pipe closed while CSV rows are written, which exits with 2 (`C66_pipe_false`); all the rest is proved |
| C67 | the runs of two or three commands on the same input, related by `expanded` (a table written out), sums and ranges | proved from C34, C36, C37, C46, C50, C52, C64 |
| C68 | the rows written for a list of reports; the rules loaded from raw rules and the tables of the files | partial: without reports the table has no header (`C68_header_false`); all the rest is proved |
| C69 | the constructors of single kinds of matchers beside the general ones | proved; for fields the counter of subfield groups must be zero, as on a new thread |
| C70 | owned records, their construction, comparison and bytes beside the borrowed ones | proved; which tags, occurrences and subfields are accepted and what they equal is `C70_parts` |
| C71 | the recursive equations of the source as equations between parsers; the nesting bound `k` of the model as the number of nested calls | partial: termination is proved (the equations have exactly one solution, and the bounded functions of the model agree with it), formats nest at most 33 calls; matchers nest at most 257 calls and one for every `!`, and no constant suffices since negations are not counted (`C71_sub_depth_false`, `C71_field_depth_false`) |
| C72 | sources as sequences of results of `read`, `BufRead::read_until` of the standard library, the loops of all commands over such sources (`CmdLoop`) | proved: `Arrives` says which contents arrive before which failure; every command does with them what it does with files of these contents; for `slice` the case where the input fails exactly at the end of the range is left open |
| C73 | `from_path_or_stdout`: file system and standard output | partial: the flag `gzip` does have an effect on standard output (`C73_gzip_false`); the rest is proved |
| C74 | outputs as sequences of results of `write`; `BufWriter` and `LineWriter` of the standard library over them; the writers of the commands (`WriterKind`) | partial: false for `convert --to xml`, whose buffer is never flushed (`C74_xml_lost`: with a full device it ends well and writes nothing), and for compressed standard output (`C74_gzip_stdout_false`); proved for all other writers; that at most a beginning arrives, all of it if nothing fails, and that a closed pipe is reported only if there is one (`C74_pipe`), is proved for all |
| C75 | Model/Csv: `csv::Writer` with the four styles of quoting, headers, the outputs of select, frequency, hash and check as texts; Spec/Csv: the grammar of RFC 4180 | partial: false with `--quote-style never` (`C75_never_false`) and for a header that has not as many names as there are columns (`C75_select_header`: the command fails at the first row); proved for all other settings, that the text has one reading only is `C75_unique` |
| C76 | Model/XmlText: the events of xml.rs and `quick_xml::writer::Writer` with indentation; Spec/Xml: a grammar of XML 1.0 with references, attributes, end-of-line handling and nesting | partial: false for control characters (`C76_control_false`) and for carriage returns (`C76_cr_false`); exactly: the output is well-formed iff all values consist of characters of XML (`C76_wellformed_iff`), and then the data that are read are those of the records with CR read as LF (`C76_data`); one reading only is `C76_unique` |
| C77 | `Spec.JsonText`: the grammar of RFC 8259, with white space, numbers, objects and all escapes | proved: every text of the grammar has one value (`C77_unique`); the output has the value `picaJson` of the records, with values decoded as they are shown (`C77_text`), themselves if they are UTF-8 (`C77_records`); an output that was cut is no JSON text (`C77_cut`) |
| C78 | the value of each option after a sequence of `config` runs, as a fold over the runs (`applied`); `ConfigDoc`: the documents that are configurations | partial: after any sequence of runs every command loads, for each option, the value set last (`C78_kept_partial`, `C78_last_partial`); missing: saving that is broken off and files that cannot be read at the beginning, for which the claim is false (`C78_cut_false`, `C78_replaced_false`, `C78_required_false`); proved exactly: which files make commands panic or fail (`C78_loads`), what is loaded otherwise (`C78_default`, `C78_read`), runs that end well have saved (`C78_saved`), runs that do not save leave the file (`C78_untouched`), how a run ends (`C78_ends`) |
| C79 | Model/RuleFile: `Deserialize` of all types of a rule file on TOML tables, `RuleSet::new`, `Check::execute` with the files; Spec/RuleFile: `IsRuleSet`, which rules a table describes, by its entries | partial: what is loaded is what the table describes (`C79_read_partial`, `C79_files_partial`), under the names in the file (`C79_names`), and every table that describes a rule set is loaded (`C79_accept_partial`), at any time if it has no parentheses (`C79_plain`, `C79_anytime`); missing: that no entry is ignored, which is false: unknown keys of rules (`C79_rule_false`, `C79_false`) and of rule sets (`C79_set_false`) are, so that a file with `[rules.x]` checks nothing (`C79_silent_false`) |
| C80 | Model/ListFile: the formats of lists by name (`ListKind.ofPath`), reading with polars as a parameter (`ListReader`), the format of `describe`; the writers of Model/Csv, Print, Select, CheckOutput | partial: for every faithful reader (`Faithful`: what the csv crate wrote is read back, up to empty cells) a table is read as a list of the chosen column (`C80_table`, `C80_text`, `C80_records`), so for `hash` (`C80_hash`, `C80_pipeline`), `select` (`C80_select`) and `check` under names that stand for one format (`C80_check_partial`; which these are: `C80_names`; which reader reads a name: `C80_readers`, `C80_rename`); `describe` follows the options (`C80_describe_partial`); missing: names such as `x.tsv.gz` for `check` (`C80_check_false`) and `describe --csv -o x.tsv` (`C80_describe_false`), for which the claim is false |
| C81 | Model/Execute: the option types and their conversions, `FilterOpts`, and everything that the commands do before their record loop. Spec/Options: which records are requested, by the texts on the command line and the grammar of expressions and paths (`Requested`, `requested`) | partial: the records selected are the requested ones (`C81_selection`), and from the command line to the output for each command (`C81_count_partial`, `C81_hash`, `C81_print`, `C81_sample`, `C81_slice`, `C81_slice_length`, `C81_split`, `C81_describe`, `C81_explode`, `C81_select`, `C81_frequency`, `C81_partition_partial`, `C81_partition_limit`, `C81_filter`, `C81_check`); conversions of options lose nothing (`C81_conversions`); missing, because false: `count --limit` (`C81_limit_false`), the normalization of paths (`C81_normalization_false`), options in `--filter-set-source` (`C81_source_false`), scores equal to the threshold (`C81_minimum_false`) |
| C82 | two commands in a row: `Delivers` (what `filter` wrote), `SameFilter` (the same options given to another command), `plainOptions` (the command behind `filter`) | partial: the next command reads exactly the requested records (`C82_input`), and its result, with all its files and counters, is that of the command with the options (`C82_hash`, `C82_count`, `C82_print`, `C82_split`, `C82_sample`, `C82_describe`, `C82_partition`, `C82_slice_partial` without `--length`); `C82_select_partial`, `C82_frequency_partial`, `C82_check_partial` for queries without parenthesis or parsed to the same, since the expressions are parsed before them on the same thread (C20); the command behind `filter` is accepted (`C82_plain`, `C82_accepted`); `explode --where` is `explode` and then `filter` (`C82_explode`); `C82_filters`, `C82_and` for two filters; missing, because false: `slice --length` (`C82_slice_false`), `filter` before `explode` (`C82_explode_false`: the options of `explode` select among the pieces) |
| C83 | `tFieldMatcher`: the field parsers with a count of the groups tried (`Model/Attempts.lean`), proved to have the same results (`C83_same`) | partial: at most `(n + 4) ^ (4 * (p + 1))` attempts for `n` bytes with `p` opening parentheses, none without parentheses (`C83_partial`); exact for an operand in `d` pairs of parentheses: `8 + 8² + … + 8ᵈ` (`C83_nested`); missing, because false: a degree that does not depend on the nesting (`C83_false`, `C83_twenty`) |
| C84 | `located`: where a path leads, without symbolic links; `joinPath`: `PathBuf::join` | partial: for `split` with every template that is a plain name (`C84_split`), for `partition` if template and value are without slashes and the name is not empty, `.` or `..` (`C84_partition_partial`, `C84_default_partial`); false for values with slashes: `/x` and `../x` (`C84_absolute_false`, `C84_parent_false`) |
| C85 | the `Display` of tags, occurrences, operators and quantifiers (`Model/Parts.lean`) beside the parsers | partial: tags, owned occurrences, operators, quantifiers (`C85_tag`, `C85_occurrence_partial`, `C85_relation`, `C85_quantifier`) and the predicate of a field (`C85_predicate`); false for `OccurrenceRef` (`C85_occurrence_false`) |
| C86 | the record loops of the commands on permuted inputs (`Props/AnyOrder.lean`) | partial: `count`, `describe`, `frequency` are equal (`C86_count`, `C86_describe`, `C86_frequency`), `select`, `hash`, `print`, `filter`, `partition` agree up to order (`C86_select`, ...), `check` without link rules, also with fast termination (`C86_check_partial`), and with any rules the reports can be paired such that they differ at most in the order of the values in the message of a link rule (`C86_check_any_partial`), `concat` plain and by checksum (`C86_concat_partial`, `C86_concat_hash_partial`); the division into files never matters (`C86_division`, `C86_commands`, `C86_outputs`); false for `concat --unique` by IDN, the messages of the link check, and with a limit (`C86_concat_idn_false`, `C86_link_false`, `C86_limit_false`) |
| C87 | `progress.rs` (counters, message; the rate is a parameter) and the calls of `update` in the record loops (`Model/Progress.lean`, `Props/Progress.lean`) | partial: for every loop built from `filesLoop` erasing the bar gives the same result (`C87_same`), the counters are the numbers of valid and invalid lines read (`C87_counts`, `C87_error`; all lines for the loops in `C87_all_lines`, with `count` written out in `C87_count`), `invalid` (`C87_invalid`), `concat` without `--unique` (`C87_concat_partial`); numbers and message `C87_number`, `C87_message`. False for `concat --unique`, which counts only the records written (`C87_concat_false`, `C87_concat_written`). Simplified: `watchBody` counts a record after the body, the code at its beginning; the two differ only if the body panics, and then no counters remain. |
| C88 | `to_string` of byte strings (`bstr`), `Model/Lossy.lean`, specification in `Spec/Lossy.lean` after Unicode 3.9 | proved: the decoder is the only function that meets the specification (`C88_text`), `C88_valid`, `C88_same`, `C88_ascii`, `C88_length`, `C88_cut`. `C88_assumptions` discharges what the other properties assume about the parameter `lossy`; `C88_json`, `C88_partition` and `C88_ambiguous` say what follows without assumptions. That `bstr` follows the standard is trusted. |
| C89 | `str::trim` and `ByteSlice::trim`, `Model/Trim.lean`; the lists of utils.rs:212, select.rs:160, frequency.rs:200, hash.rs:64, check/mod.rs:85 and the modifier of fmt/mod.rs:339-341 | proved: `C89_text` (texts, over characters), `C89_bytes` (any bytes), `C89_again`, `C89_components`, `C89_lists`, `C89_printed` (C85_predicate without assumptions about `lossy` and `trim`), `C89_format`. Trusted: the functions of the standard library and of `bstr` remove the characters with the property White_Space. |
| C90 | `is_similar` (subfield/mod.rs:352-366), `generic_levenshtein` and `normalized_levenshtein` of `strsim` 0.11 with their loops, `f64` as rational numbers rounded to 53 binary digits after each operation (`Model/Similar.lean`, `Spec/Similar.lean`) | partial: `C90_distance` (the loop computes the least number of changes), `C90_rounding` (`fl` gives a nearest number with 53 digits), `C90_similar` (exactly when values are similar, symmetric), `C90_default` (75 and 80 are exact), `C90_ends`, `C90_matcher`, `C90_threshold_partial`. False: `C90_threshold_false`, with `--strsim-threshold 30` a score of exactly 30 passes, with 20 a score of exactly 20 does not. Trusted: the source of `strsim` (from memory, it is not in the repository), IEEE 754 arithmetic, that literals are rounded to the nearest. The range of exponents is not modelled. |
| C91 | the parsers of matchers, paths, formats and queries with the feature `compat` (`Model/Compat.lean`: parser.rs:83-102, path.rs:80-158, subfield/parser.rs:39-117, field/parser.rs:61-121, 186-228, and what uses them), `Spec.DollarAs`, `Spec.DollarList` | partial: `C91_field`, `C91_sub`, `C91_path`, `C91_format`, `C91_query` (what is accepted without the feature is accepted with it and is the same, by cutting the text into tokens: `$` is none of them), `C91_without`, `C91_off`, `C91_path_dollar`, `C91_path_braces`, `C91_sub_dollar_partial`, `C91_sub_only` (which matchers accept `$`), `C91_field_dollar_partial`, `C91_field_braces_partial`, `C91_path_filter_partial` (the same in braces and in the filter of a path). False: `C91_field_list_false`, `C91_sub_false`. |
| C92 | `RuleSet.checkRules`, `RuleSet.step`, `CheckCmd.run` (check/set.rs:70-91, check/rule.rs, check/mod.rs:50-150); `Applies`, `IsReport`, `reporting` as specification | partial: `C92_first_partial` (without `link`, the output is, record by record and set by set, the reports of the wanted rules that apply, with fast termination of the first only), `C92_records_partial` (fast termination loses reports but no reported record), `C92_reports`, `C92_rule` (all rules, `link` included: each rule reports what it reports alone, asked for the records in scope to which no wanted rule before it applies). False with `link` (`C92_link_false`) |
| C93 | `ConvertCmd.write`, `binaryRecord`, `importRecord`, `plainRecord` (convert/binary.rs, import.rs, plain.rs, mod.rs:73-118); `ValidLines`, `toBinary`, `toPlain`, `toImport` as specification on the bytes of the lines (`Props/Rewrite.lean`) | proved: `C93_plus`, `C93_binary`, `C93_back`, `C93_plain`, `C93_import` |
| C94 | `filesLoop` and the record loops of all commands, from `prepare`/`command` (Model/Execute) and from rule files (Model/RuleFile); `Survives` as specification (`Spec/Survives.lean`); an invariant on the state of the loop for `sample` (the reservoir holds written records) and `check` (paths, queries and matchers of the rules come from accepted texts) | partial: `C94_tests`, `C94_count`, `C94_describe`, `C94_explode`, `C94_filter`, `C94_frequency`, `C94_hash`, `C94_partition`, `C94_sample`, `C94_select`, `C94_slice`, `C94_split`, `C94_check`, `C94_no_panic`; with conditions `C94_print_partial`, `C94_concat_partial`, `C94_convert_partial`; false without them: `C94_print_false`, `C94_concat_false`, `C94_convert_false`, `C94_regex_false` |
| C95 | the options of the commands (Model/Execute) as in C81; the statements are about `Requested`, the specification of C81 in terms of the texts of path and expressions and of the names of the lists, and about the results of several runs of `count` on the same files | proved: `C95_divide`, `C95_lists`, `C95_texts`, `C95_count_lists`, `C95_count_or`, `C95_count_not`; the values at the path are determined by its text (`source_values`, from `C23_text` and `C23_unique`) |
| C96 | `FilterCmd.save`, `ConcatCmd.save`, `SelectCmd.save`, `CountCmd.save` (Model/Append): the record loops of the commands together with the files they write, as functions on the contents of all files; `runsAfter` for several runs. The input files have fixed contents, so the output file is not among them | partial: `C96_file`, `C96_tee`, `C96_concat_file`, `C96_table_file`, `C96_filter_partial`, `C96_concat_partial`, `C96_select_partial`, `C96_count`; false with other options: `C96_gz_false`, `C96_header_false`, `C96_unique_false`, `C96_limit_false`. The loops over two groups of files are added with a general lemma (`filesLoop_plus`) |
| C97 | `iso639Codes`, `jelCodes` (Model/CheckCodes) against a table of ISO 639-2/B written separately (Spec/CodeLists). The table is from memory, no copy of the standard was at hand: that it is the published one is assumed. For JEL there is no such table, only the form is stated | partial: `C97_iso639`, `C97_bibliographic`, `C97_check_partial` (records without empty values, disagreement 17), `C97_jel_partial`; false for `Z0`: `C97_jel_false` |
| C98 | the record loops of the twelve commands with `--limit`; Spec: `LimitLe`, `Shorter` (two outcomes of a loop), `MoreInput` (further lines and files), Spec/Limit | partial: `C98_filter`, `C98_select`, `C98_print`, `C98_hash`, `C98_explode`, `C98_slice`, `C98_partition`, `C98_frequency`, `C98_describe` (the tables before sorting), `C98_split_partial` (template with braces, fewer than 2^32 records), `C98_rest`, `C98_rest_tables`, `C98_at_most`, `C98_results` (lines written), `C98_check_partial` (no link rule), `C98_sliced_partial`, `C98_sliced_explode_partial` (`filter --limit n` is `filter \| slice --end n`, and so for `explode`, if no record loses all its fields; otherwise false, `C98_sliced_false`), `C98_before` (eight commands with `--limit n` and filter options do what they do with the output of `filter --limit n`; false for `partition`, `explode` and `slice`, `C98_before_false`); false for a link rule (`C98_check_false`), `sample` (`C98_sample_false`) and `split` without braces (`C98_split_false`). Loops are compared step by step (`filesLoop_sooner`) |
| C99 | `SliceCmd.save` and `SliceCmd.saveAll` (Model/SliceRuns): runs of `slice` with `--append` and the files they leave; Spec: `between`, `lastCut`, `Growing`, `pages` | partial (no limit, no `.gz` file, fewer than 2^64 records): `C99_file`, `C99_cuts_partial`, `C99_whole_partial`, `C99_pages_partial`, `C99_finishes`, `C99_nested` (a slice of a slice); false for pages with skipped lines (`C99_pages_false`) and for `--end 0` (`C99_zero_false`) |

## Disagreements between the code and its documentation or intent

1. A value with a newline can be constructed and written, but not read (C05).
2. `next_string_record` reports the preceding line number for invalid UTF-8 (C06).
3. Ranges of occurrences compare texts (C13).
4. `a && b ^ c || d` is rejected by both matcher parsers (C16).
5. In subfield matchers the nesting counter is never decremented (the closing
   parenthesis is mapped to a closure that does not call `group_level_dec`), so
   three pairs of parentheses are never accepted; after failing parses the
   counters of all three parsers keep their values, and later correct
   expressions on the same thread are rejected (C20, C21).
6. Case-ignoring `==` compares lengths before folding (C19).
7. A regular expression that is accepted by the parser may fail to compile when
   evaluated with other options; evaluation then panics (C22).
8. The bound of a group in a format (`(..)..2`) is ignored (C27).
9. explode: main-level fields behind the first local block are missing from
   earlier records; records without local/copy fields disappear (C30).
10. split without `{}` overwrites its chunks; `count as u32` (C31).
11. `concat --unique` panics on a record without IDN (C32).
12. `slice --length` counts skipped lines; `--start` + `--length` can wrap (C34).
13. `sample` draws from `0..count` with `count` one too small (C35).
14. `frequency --reverse --threshold` stops at the first rare row (C36).
15. `convert`: plain has no record border, xml drops occurrences and panics on
    non-UTF-8, json replaces non-UTF-8 bytes (C38).
16. The isni check takes letters for digits (C39).
17. Checks that join messages do not report a single empty value (C40, C42).
18. Fast termination loses link sources and depends on hash-map order (C40, C45).
19. The duplicates check identifies rows by joined text (C41).
20. `slice --gzip --append` panics; appending to a `.gz` file loses the appended
    records on reading; `--gzip` with another extension cannot be read back (C43, C49).
21. `select --unique` compares 64-bit hashes, before transliteration (C46).
22. `print` panics on values that are not UTF-8, also with `--skip-invalid`,
    and its text is ambiguous (C51).
23. The printed text of `((a & b) ^ c) | d`, and of the negation of
    `ALL 012A.a?` (`!ALL 012A.a?`), is rejected when read back; deserialization
    of such a serialized matcher fails (C54).
24. `filter --file FILE x -` reads `x` only and not standard input (C59).
25. `explode local` does not cut a record at a main field between a copy and a
    local field, but cuts its own output there (C65).
26. A closed output pipe is a success for PICA+ output, but an error for the
    commands that write CSV (C66).
27. `check` writes no header to its CSV output if there are no reports, while
    `select` and `frequency` always write the header asked for (C68).
28. Nested negations are not counted by the limit of open groups: a text of
    exclamation marks nests as many calls as it is long, without parentheses (C71).
29. The comments of `WriterBuilder::gzip` say that the flag has no effect on standard
    output, but standard output is compressed, and `-` is never decompressed (C73).
30. `convert --to xml` never flushes its buffer: errors of the last (or only) write are
    overlooked and the command exits with 0; errors of earlier writes, also a closed
    pipe, panic. Compressed standard output is not flushed either (C74).
31. `select`, `frequency` and `hash` do not compare the header with the columns of the
    query. If they differ the first row is written without its end and the command fails
    with a CSV error; without rows it succeeds (C75).
32. `convert --to xml` writes values with control characters as they are, so that the
    output is not well-formed XML, and does not escape carriage returns, which an XML
    processor reads as line feeds (C76).
33. With `--config`, a file that cannot be read or is not UTF-8 is taken for an empty one
    without a message, and replaced by the next `config`; a file without `skip-invalid`,
    also one that was broken off while saving, makes every command panic, `config`
    too; keys that are not known are lost when saving (C78).
34. Unknown keys of rule files are ignored: a misspelt option (`invert` for
    `invert-match`) has its default, and rules under `[rules.x]` are not checked; the
    command then ends with success and without reports (C79).
35. `check -o x.tsv.gz` writes commas, not compressed, but lists of this name are read with
    tabs, so that the command that gets the list fails; likewise names that end with `ipc`,
    `tsv` or `txt` without a dot (C80).
36. `describe --csv -o x.tsv` writes tabs (C80).
37. `--strsim-threshold` is documented as the minimum score, but a score equal to it does not
    match, e.g. `abcd` and `abce` with 75 (C81).
38. The configured normalization is applied to `--where` and to queries, but not to the path of
    `partition` and of `--filter-set-source` (C81).
39. `--ignore-case` and `--strsim-threshold` do not reach the path of `--filter-set-source` (C81).
40. `count` accepts `--limit` and ignores it (C81).
41. `filter X | explode` and `explode --where X` differ: the latter selects among the pieces, which the
    help of the option ("a filter expression used for searching") does not say (C82).
42. A field or record expression is parsed in time exponential in the nesting of parentheses: a single
    operand in parentheses is read eight times per level (`alt` over `or`, `xor` and `and` chains which
    each parse it again).  Twenty pairs of parentheses, far below the limit of 256 groups, take more than
    10¹⁸ attempts (C83).
43. `partition` puts the values of subfields into paths as they are: the file of the value `../x` is
    beside the output directory, and that of `/x` does not depend on it, so that records from others
    decide which files are overwritten (C84).
44. Two values of `partition` with the same file name (template without `{}`, invalid UTF-8) always cost
    records, and which ones depends on the order of a hash map (C33).
45. `OccurrenceRef` prints with a slash, `Occurrence` without; `new` of both reads only the text without
    (C85).
46. `concat --unique` by IDN and the messages of the link check depend on the order of the records (C86).
47. With `concat --unique` the progress bar does not count the records that are left out (concat.rs:119-133), all other commands count every record read (C87).
48. A score equal to `--strsim-threshold` passes for twenty of the hundred thresholds (30, for example) and does not for the others, because the two sides are rounded differently (C90).
49. With the feature `compat` a list of codes after `$` is accepted in paths and in braces, `003@{$ab == 'x'}`, but not directly after the tag, `003@$ab == 'x'`; in braces only comparisons and `=?` accept `$`, while `{$a?}`, `{$a in ['x']}`, `{$a =~ 'x'}` and `{#$a > 1}` are rejected, and a format accepts it nowhere but in its filter. `003@.$ab == 'x'` and `003@$$ab == 'x'` are accepted (C91).
50. The check `link` never ends the work on a record with fast termination, because it reports at the end of the input only: a record with a dangling link is reported by the next rule too, and if a rule before `link` applies, the dangling link is lost (C92, C40).
51. `select --header … --append` and `count --csv --append` write the header in every run, so the file that several runs leave is not a table with one header (select.rs:159-161, count.rs:140-149; `C96_header_false`). With `--unique`, rows and records of the runs before are written again (`C96_unique_false`).
52. The list of the check `jelc` has `Z00` but not its category `Z0`, while all other codes with two digits have their category in the list; so `Z0` is reported (`C97_jel_false`). `P0` is listed twice, which has no effect.
53. `check --limit` with a link rule reports links to records after the limit as dangling (check/mod.rs:132-136; `C98_check_false`).
54. `slice --end 0` is not an empty range: 0 is the default and means no end (slice.rs:100-106; `C99_zero_false`). Pages with `--length` and `--skip-invalid` overlap, because a skipped line moves the end of the range but not the start (`C99_pages_false`).
55. A record that loses all its fields by `--keep` or `--discard` is not written, but it counts for `--limit` (filter.rs:248-258; `C98_sliced_false`).
56. `invalid` writes the unterminated last line of a file as it is; in the output it becomes one line with the next one, and together they may be a valid record (invalid.rs:72-88; `C44_merged`).
