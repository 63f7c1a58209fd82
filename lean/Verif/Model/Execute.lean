import Verif.Model.Args
import Verif.Model.Count
import Verif.Model.Describe
import Verif.Model.Explode
import Verif.Model.Frequency
import Verif.Model.Partition
import Verif.Model.Print
import Verif.Model.RuleFile
import Verif.Model.Sample
import Verif.Model.Select
import Verif.Model.Slice
import Verif.Model.Split

/-!
# From the command line to the record loops

Models the options of matchers, queries and formats (`src/matcher/options.rs`, `src/query.rs`,
`src/fmt/mod.rs`), `FilterOpts` (`crates/pica-cli/src/cli.rs`) and the part of `execute` before the
record loop of each command that has filter options.  Opening the output is not modelled, nor are
options that only concern the output file (`--gzip`, `--append`, `--progress`, `--output`).
-/

namespace Pica

/-- functions of other crates, and the file system as far as lists are read from it -/
structure World where
  /-- the regular expression compiles -/
  rx : Bytes → Bool
  /-- regular expressions, upper and lower case, `trim`; `similar` is not used -/
  base : FmtEnv
  /-- `f64` -/
  Num : Type
  /-- `a > b` -/
  above : Num → Num → Bool
  /-- `n as f64 / 100f64` -/
  percent : Nat → Num
  /-- `0.8` -/
  eighty : Num
  /-- the score of two texts, subfield/mod.rs:353-363: `normalized_levenshtein` of the decoded and,
  if the first argument is set, lowercased texts -/
  score : Bool → Bytes → Bytes → Num
  /-- the normalization forms -/
  tr : NForm → Bytes → Bytes
  /-- `str::trim` -/
  trim : Bytes → Bytes
  /-- `to_string` of a byte string -/
  lossy : Bytes → Bytes
  /-- the data frame of a list, utils.rs:108-141, see Model/ListFile -/
  list : Bytes → Option Table

/-! ## options of the library -/

/-- `MatcherOptions`, options.rs:3-8 -/
structure MatcherOptions (Num : Type) where
  strsimThreshold : Num
  caseIgnore : Bool

/-- `QueryOptions`, query.rs:225-232 -/
structure QueryOptions (Num : Type) where
  caseIgnore : Bool
  strsimThreshold : Num
  separator : Bytes
  squash : Bool
  merge : Bool

/-- `FormatOptions`, fmt/mod.rs:66-75 -/
structure FormatOptions (Num : Type) where
  stripOverreadChar : Bool
  strsimThreshold : Num
  caseIgnore : Bool

/-- `MatcherOptions::default` and `new`, options.rs:10-45 -/
def MatcherOptions.new (W : World) : MatcherOptions W.Num := ⟨W.eighty, false⟩

/-- `QueryOptions::default` and `new`, query.rs:234-261 -/
def QueryOptions.new (W : World) : QueryOptions W.Num := ⟨false, W.eighty, bs "|", false, false⟩

/-- `FormatOptions::default` and `new`, fmt/mod.rs:77-91 -/
def FormatOptions.new (W : World) : FormatOptions W.Num := ⟨false, W.eighty, false⟩

/-- `From<&QueryOptions> for MatcherOptions`, query.rs:291-298 -/
def QueryOptions.matcher (W : World) (o : QueryOptions W.Num) : MatcherOptions W.Num :=
  { { MatcherOptions.new W with strsimThreshold := o.strsimThreshold } with caseIgnore := o.caseIgnore }

/-- `From<&QueryOptions> for FormatOptions`, query.rs:300-307 -/
def QueryOptions.format (W : World) (o : QueryOptions W.Num) : FormatOptions W.Num :=
  { { FormatOptions.new W with strsimThreshold := o.strsimThreshold } with caseIgnore := o.caseIgnore }

/-- `From<&FormatOptions> for MatcherOptions`, fmt/mod.rs:142-150 -/
def FormatOptions.matcher {Num : Type} (o : FormatOptions Num) : MatcherOptions Num :=
  ⟨o.strsimThreshold, o.caseIgnore⟩

/-- `RelationMatcher::is_similar`, subfield/mod.rs:352-366, for a threshold -/
def World.similar (W : World) (threshold : W.Num) (caseIgnore : Bool) (lhs rhs : Bytes) : Bool :=
  W.above (W.score caseIgnore lhs rhs) threshold

/-- the environment of Model/Format and Model/Query for a threshold -/
def World.fmtEnv (W : World) (threshold : W.Num) : FmtEnv := { W.base with similar := W.similar threshold }

/-- the environment of Model/Matcher for a threshold -/
def World.env (W : World) (threshold : W.Num) : Env := (W.fmtEnv threshold).toEnv

/-- the options as in Model/Matcher -/
def MatcherOptions.opts {Num : Type} (o : MatcherOptions Num) : Opts := ⟨o.caseIgnore⟩

/-- the options as in Model/Query -/
def QueryOptions.opts {Num : Type} (o : QueryOptions Num) : QueryOpts := ⟨o.caseIgnore, o.separator, o.squash, o.merge⟩

/-! ## `FilterOpts` -/

/-- `FilterOpts`, cli.rs:46-142; `source` is the text that clap parses -/
structure FilterOpts where
  skipInvalid : Bool
  limit : Nat
  ignoreCase : Bool
  strsimThreshold : Nat
  allow : List Bytes
  deny : List Bytes
  column : Option Bytes
  source : Option Bytes
  texts : FilterTexts

/-- what clap accepts: cli.rs:64 and the attributes of the expressions -/
def FilterOpts.Accepted (l : FilterOpts) : Prop := l.strsimThreshold < 100 ∧ l.texts.Accepted

/-- `From<&FilterOpts> for MatcherOptions`, cli.rs:170-176 -/
def FilterOpts.options (W : World) (l : FilterOpts) : MatcherOptions W.Num :=
  { { MatcherOptions.new W with strsimThreshold := W.percent l.strsimThreshold } with caseIgnore := l.ignoreCase }

/-- the paths of clap: cli.rs:117-118 -/
def parseSource (rx : Bytes → Bool) (s : Levels) : Option Bytes → Option (Option Path) × Levels
  | none => (some none, s)
  | some text =>
    match Path.new rx s text with
    | (some p, s') => (some (some p), s')
    | (none, s') => (none, s')

/-- `TryFrom<&FilterOpts> for FilterSet`, utils.rs:84-96, for a parsed source -/
def buildSet (W : World) (source : Option Path) (column : Option Bytes) (allow deny : List Bytes) : Option FilterSet :=
  match allow.mapM W.list, deny.mapM W.list with
  | some a, some d => FilterSet.build source column a d
  | _, _ => none

/-- the selection of a command from its options: the filter set has the default options
(utils.rs:71), the matcher those of the command -/
def World.selection (W : World) (o : MatcherOptions W.Num) (set : FilterSet) (m : Option RecordMatcher) : Selection :=
  ⟨W.env (MatcherOptions.new W).strsimThreshold, W.env o.strsimThreshold, o.opts, set, m⟩

/-- lists and matcher of a command, e.g. count.rs:79-83, with the options of the matcher; clap parses
the source before.  `none` is an error. -/
def FilterOpts.selection (W : World) (cfg : Config) (o : MatcherOptions W.Num) (s : Levels) (l : FilterOpts) :
    Option Selection × Levels :=
  match parseSource W.rx s l.source with
  | (none, s') => (none, s')
  | (some source, s1) =>
    match buildSet W source l.column l.allow l.deny with
    | none => (none, s1)
    | some set =>
      match l.texts.matcher W.rx (translit W.tr cfg.normalization) s1 with
      | (none, s') => (none, s')
      | (some m, s') => (some (W.selection o set m), s')

/-- with the options `MatcherOptions::from(&self.filter_opts)` -/
def FilterOpts.select (W : World) (cfg : Config) (s : Levels) (l : FilterOpts) : Option Selection × Levels :=
  l.selection W cfg (l.options W) s

/-- `self.filter_opts.skip_invalid || config.skip_invalid`, e.g. count.rs:63-64 -/
def FilterOpts.skip (cfg : Config) (l : FilterOpts) : Bool := l.skipInvalid || cfg.skipInvalid

/-! ## the commands -/

/-- the arguments of `count`, count.rs:12-57 -/
structure CountArgs where
  records : Bool
  fields : Bool
  subfields : Bool
  csv : Bool
  tsv : Bool
  noHeader : Bool
  opts : FilterOpts

/-- the order of the tests in count.rs:127-146 -/
def CountArgs.format (a : CountArgs) : CountFormat :=
  if a.records then .records
  else if a.fields then .fields
  else if a.subfields then .subfields
  else if a.csv then .csv (!a.noHeader)
  else if a.tsv then .tsv (!a.noHeader)
  else .plain

/-- count.rs:60-83 -/
def CountArgs.prepare (W : World) (cfg : Config) (s : Levels) (a : CountArgs) : Option CountCmd :=
  (a.opts.select W cfg s).1.map (fun sel => ⟨a.opts.skip cfg, a.format, sel⟩)

/-- the arguments of `describe`, describe.rs:14-45 -/
structure DescribeArgs where
  keep : Option Bytes
  discard : Option Bytes
  opts : FilterOpts

/-- describe.rs:48-64 -/
def DescribeArgs.prepare (W : World) (iter : TagTable → TagTable) (cfg : Config) (s : Levels) (a : DescribeArgs) :
    Option DescribeCmd :=
  match FilterArgs.predicates W.trim a.discard, FilterArgs.predicates W.trim a.keep with
  | some discard, some keep =>
    (a.opts.select W cfg s).1.map (fun sel => ⟨a.opts.skip cfg, a.opts.limit, discard, keep, iter, sel⟩)
  | _, _ => none

/-- the arguments of `explode`, explode.rs:14-43 -/
structure ExplodeArgs where
  keep : Option Bytes
  discard : Option Bytes
  level : Level
  opts : FilterOpts

/-- explode.rs:145-169 -/
def ExplodeArgs.prepare (W : World) (cfg : Config) (s : Levels) (a : ExplodeArgs) : Option ExplodeCmd :=
  match FilterArgs.predicates W.trim a.discard, FilterArgs.predicates W.trim a.keep with
  | some discard, some keep =>
    (a.opts.select W cfg s).1.map (fun sel => ⟨a.opts.skip cfg, a.level, a.opts.limit, sel, keep, discard⟩)
  | _, _ => none

/-- the arguments of `frequency`, frequency.rs:27-109 -/
structure FrequencyArgs where
  squash : Bool
  merge : Bool
  separator : Bytes
  unique : Bool
  reverse : Bool
  num : Nat
  threshold : Nat
  nf : Option NForm
  query : Bytes
  opts : FilterOpts

/-- frequency.rs:129-136 -/
def FrequencyArgs.options (W : World) (a : FrequencyArgs) : QueryOptions W.Num :=
  { QueryOptions.new W with
    strsimThreshold := W.percent a.opts.strsimThreshold, caseIgnore := a.opts.ignoreCase,
    separator := a.separator, squash := a.squash, merge := a.merge }

/-- frequency.rs:112-146 -/
def FrequencyArgs.prepare (W : World) (iter : List (Row × Nat) → List (Row × Nat)) (cfg : Config) (s : Levels)
    (a : FrequencyArgs) : Option FreqCmd :=
  match a.opts.selection W cfg ((a.options W).matcher W) s with
  | (none, _) => none
  | (some sel, s1) =>
    (Query.new W.rx s1 (translit W.tr cfg.normalization a.query)).1.map (fun q =>
      ⟨a.opts.skip cfg, a.unique, a.reverse, a.num, a.threshold, a.opts.limit, q,
        W.fmtEnv (a.options W).strsimThreshold, (a.options W).opts, iter,
        fun v => translit W.tr a.nf (W.lossy v), sel⟩)

/-- the arguments of `hash`, hash.rs:15-41; the header is in Model/Csv -/
structure HashArgs where
  opts : FilterOpts

/-- hash.rs:43-53 -/
def HashArgs.prepare (W : World) (sha : Bytes → Bytes) (cfg : Config) (s : Levels) (a : HashArgs) : Option HashCmd :=
  (a.opts.select W cfg s).1.map (fun sel => ⟨a.opts.skip cfg, a.opts.limit, sha, W.lossy, sel⟩)

/-- the arguments of `partition`, partition.rs:23-56; `path` is the text that clap parses -/
structure PartitionArgs where
  gzip : Bool
  template : Option Bytes
  path : Bytes
  opts : FilterOpts

/-- `self.template.unwrap_or(…)`, partition.rs:71-75, split.rs:64-68 -/
def fileTemplate (gzip : Bool) (template : Option Bytes) : Bytes :=
  template.getD (if gzip then bs "{}.dat.gz" else bs "{}.dat")

/-- partition.rs:59-75; clap parses the path before -/
def PartitionArgs.prepare (W : World) (cfg : Config) (s : Levels) (a : PartitionArgs) : Option PartitionCmd :=
  match Path.new W.rx s a.path with
  | (none, _) => none
  | (some path, s1) =>
    (a.opts.select W cfg s1).1.map (fun sel =>
      ⟨a.opts.skip cfg, fileTemplate a.gzip a.template, a.opts.limit, path, W.lossy, sel⟩)

/-- the arguments of `print`, print.rs:15-34 -/
structure PrintArgs where
  nf : Option NForm
  opts : FilterOpts

/-- print.rs:37-47 and 79 -/
def PrintArgs.prepare (W : World) (cfg : Config) (s : Levels) (a : PrintArgs) : Option PrintCmd :=
  (a.opts.select W cfg s).1.map (fun sel => ⟨a.opts.skip cfg, a.opts.limit, translit W.tr a.nf, sel⟩)

/-- the arguments of `sample`, sample.rs:13-44 -/
structure SampleArgs where
  size : Nat
  opts : FilterOpts

/-- sample.rs:47-58 -/
def SampleArgs.prepare (W : World) (draw : Nat → Nat) (cfg : Config) (s : Levels) (a : SampleArgs) : Option SampleCmd :=
  (a.opts.select W cfg s).1.map (fun sel => ⟨a.opts.skip cfg, a.size, a.opts.limit, draw, sel⟩)

/-- the arguments of `select`, select.rs:38-109 -/
structure SelectArgs where
  squash : Bool
  merge : Bool
  separator : Bytes
  noEmptyColumns : Bool
  unique : Bool
  nf : Option NForm
  query : Bytes
  opts : FilterOpts

/-- select.rs:137-144 -/
def SelectArgs.options (W : World) (a : SelectArgs) : QueryOptions W.Num :=
  { QueryOptions.new W with
    strsimThreshold := W.percent a.opts.strsimThreshold, caseIgnore := a.opts.ignoreCase,
    separator := a.separator, squash := a.squash, merge := a.merge }

/-- how the cells are written: as they are, without `--translit`, select.rs:210-222 -/
def SelectArgs.text (W : World) (a : SelectArgs) : Bytes → Bytes :=
  match a.nf with
  | none => id
  | some nf => fun v => W.tr nf (W.lossy v)

/-- select.rs:128-152 -/
def SelectArgs.prepare (W : World) (hash : List Bytes → Nat) (cfg : Config) (s : Levels) (a : SelectArgs) :
    Option SelectCmd :=
  match a.opts.selection W cfg ((a.options W).matcher W) s with
  | (none, _) => none
  | (some sel, s1) =>
    (Query.new W.rx s1 (translit W.tr cfg.normalization a.query)).1.map (fun q =>
      ⟨a.opts.skip cfg, a.unique, a.noEmptyColumns, a.opts.limit, q,
        W.fmtEnv (a.options W).strsimThreshold, (a.options W).opts, hash, a.text W, sel⟩)

/-- the arguments of `slice`, slice.rs:17-81 -/
structure SliceArgs where
  start : Nat
  «end» : Nat
  length : Nat
  opts : FilterOpts

/-- slice.rs:84-93 -/
def SliceArgs.prepare (W : World) (cfg : Config) (s : Levels) (a : SliceArgs) : Option SliceCmd :=
  (a.opts.select W cfg s).1.map (fun sel => ⟨a.opts.skip cfg, a.start, a.end, a.length, a.opts.limit, sel⟩)

/-- the arguments of `split`, split.rs:16-47 -/
structure SplitArgs where
  gzip : Bool
  template : Option Bytes
  chunkSize : Nat
  opts : FilterOpts

/-- split.rs:51-68 -/
def SplitArgs.prepare (W : World) (cfg : Config) (s : Levels) (a : SplitArgs) : Option SplitCmd :=
  (a.opts.select W cfg s).1.map (fun sel =>
    ⟨a.opts.skip cfg, a.chunkSize, fileTemplate a.gzip a.template, a.opts.limit, sel⟩)

/-- the arguments of `check`, check/mod.rs:19-47; `rules` are the texts of the rule files -/
structure CheckArgs where
  rules : List (Option Bytes)
  filter : List Bytes
  tags : Option Bytes
  opts : FilterOpts

/-- check/mod.rs:50-100; `regexSet` is `RegexSetBuilder::new(…).build()` for `str` -/
def CheckArgs.prepare (W : World) (R : RuleEnv) (toml : Bytes → Option TTable)
    (order : List (Bytes × RawRule) → List (Bytes × RawRule)) (regexSet : List Bytes → Option (Bytes → Bool))
    (C : CheckEnv) (cfg : Config) (s : Levels) (a : CheckArgs) : Option CheckCmd :=
  match a.opts.select W cfg s with
  | (none, _) => none
  | (some sel, s1) =>
    match loadRuleSets R toml W.tr W.list order cfg.normalization a.rules s1 with
    | none => none
    | some (sets, _) =>
      if a.filter.isEmpty then some ⟨a.opts.skip cfg, a.opts.limit, sel, C, none, a.tags, sets⟩
      else (regexSet a.filter).map (fun re => ⟨a.opts.skip cfg, a.opts.limit, sel, C, some re, a.tags, sets⟩)

/-- the options of `filter` that are not in `FilterArgs`, filter.rs:28-37 and 63-113 -/
structure FilterLists where
  ignoreCase : Bool
  strsimThreshold : Nat
  allow : List Bytes
  deny : List Bytes
  column : Option Bytes
  source : Option Bytes

/-- filter.rs:216-218 -/
def FilterLists.options (W : World) (l : FilterLists) : MatcherOptions W.Num :=
  { { MatcherOptions.new W with strsimThreshold := W.percent l.strsimThreshold } with caseIgnore := l.ignoreCase }

/-- filter.rs:161-218 -/
def FilterArgs.command (W : World) (cfg : Config) (s : Levels) (a : FilterArgs) (l : FilterLists) : Option FilterCmd :=
  match parseSource W.rx s l.source with
  | (none, _) => none
  | (some source, s1) =>
    match buildSet W source l.column l.allow l.deny with
    | none => none
    | some set =>
      a.prepare W.rx W.trim W.tr cfg (W.env (MatcherOptions.new W).strsimThreshold)
        (W.env (l.options W).strsimThreshold) (l.options W).opts set s1

end Pica
