import Verif.Model.FilterCmd
import Verif.Model.FieldParser
import Verif.Model.Predicates

/-!
# Command line and configuration

Models `crates/pica-cli/src/cli.rs` (`FilterOpts::matcher`), the preparation of
`filter` (`commands/filter.rs`), `utils.rs` (filter lists), `config.rs` and
`commands/config.rs`.  What clap does is given by the conditions `Accepted`.
-/

namespace Pica

/-! ## normalization forms -/

/-- `NormalizationForm`, translit.rs:8-18 -/
inductive NForm | nfc | nfkc | nfd | nfkd
deriving DecidableEq, Repr

/-- `Display`, translit.rs:20-29 -/
def NForm.print : NForm → Bytes
  | .nfc => bs "nfc"
  | .nfkc => bs "nfkc"
  | .nfd => bs "nfd"
  | .nfkd => bs "nfkd"

/-- `FromStr`, translit.rs:31-43 -/
def NForm.parse (s : Bytes) : Option NForm :=
  if s = bs "nfc" then some .nfc
  else if s = bs "nfkc" then some .nfkc
  else if s = bs "nfd" then some .nfd
  else if s = bs "nfkd" then some .nfkd
  else none

/-- `translit`, translit.rs:45-57; `tr` are the four normalizations -/
def translit (tr : NForm → Bytes → Bytes) : Option NForm → Bytes → Bytes
  | some nf, s => tr nf s
  | none, s => s

/-! ## the configuration -/

/-- `Config`, config.rs:9-35 -/
structure Config where
  skipInvalid : Bool
  normalization : Option NForm
deriving DecidableEq, Repr

/-- the arguments of `config`, commands/config.rs:8-28 -/
structure ConfigArgs where
  get : Bool
  unset : Bool
  set : Bool
  name : Bytes
  value : Option Bytes

/-- the attributes `conflicts_with_all` and `requires`, commands/config.rs:10-27 -/
def ConfigArgs.Accepted (a : ConfigArgs) : Prop :=
  (a.get = true → a.value = none ∧ a.unset = false ∧ a.set = false) ∧
  (a.unset = true → a.value = none ∧ a.get = false ∧ a.set = false) ∧
  (a.set = true → a.value.isSome = true ∧ a.get = false ∧ a.unset = false)

/-- what `config` does: it saves the configuration, prints a line, ends with an
error, or runs into `unreachable!()` -/
inductive ConfigOutcome where
  | saved (c : Config)
  | printed (line : Bytes)
  | error
  | panic
deriving DecidableEq, Repr

/-- `str::parse::<bool>` -/
def parseBool (s : Bytes) : Option Bool :=
  if s = bs "true" then some true else if s = bs "false" then some false else none

/-- `bool::to_string` -/
def printBool (b : Bool) : Bytes := if b then bs "true" else bs "false"

/-- `print_option`, commands/config.rs:30-39 -/
def printOption : Option Bytes → Bytes
  | some v => v
  | none => bs "None"

/-- `Config::execute`, commands/config.rs:42-103; saving succeeds -/
def ConfigArgs.execute (a : ConfigArgs) (c : Config) : ConfigOutcome :=
  if a.name = bs "skip-invalid" ∨ a.name = bs "normalization" then
    match a.value with
    | some v =>
      if a.name = bs "skip-invalid" then
        match parseBool v with
        | some b => .saved { c with skipInvalid := b }
        | none => .error
      else if a.name = bs "normalization" then
        match NForm.parse v with
        | some nf => .saved { c with normalization := some nf }
        | none => .error
      else .panic
    | none =>
      if a.unset then
        if a.name = bs "skip-invalid" then .saved { c with skipInvalid := false }
        else if a.name = bs "normalization" then .saved { c with normalization := none }
        else .panic
      else if a.get || (!a.unset && !a.set) then
        if a.name = bs "skip-invalid" then .printed (printOption (some (printBool c.skipInvalid)))
        else if a.name = bs "normalization" then .printed (printOption (c.normalization.map NForm.print))
        else .panic
      else .panic
  else .error

/-! ## filter lists -/

/-- a data frame: its columns with their names; a cell may be null -/
abbrev Table := List (Bytes × List (Option Bytes))

/-- `df.column(name)` -/
def Table.column (t : Table) (name : Bytes) : Option (List (Option Bytes)) :=
  (t.find? (fun c => c.1 == name)).map (·.2)

/-- the column of a list, utils.rs:142-157 -/
def listColumn (column : Option Bytes) (t : Table) : Option (List (Option Bytes)) :=
  match column with
  | some name => t.column name
  | none =>
    match t.column (bs "ppn") with
    | some c => some c
    | none => t.column (bs "idn")

/-- the loop of `read_filter_list`, utils.rs:110-168; reading the files with polars
is not modelled, `tables` are the data frames (for text files after `rename`) -/
def readTables (column : Option Bytes) : List Table → Option (List Bytes)
  | [] => some []
  | t :: ts =>
    match listColumn column t with
    | none => none
    | some cells => (readTables column ts).map (fun l => cells.filterMap id ++ l)

/-- `read_filter_list`, utils.rs:98-169; the outer `none` is an error -/
def readFilterList (column : Option Bytes) (tables : List Table) : Option (Option (List Bytes)) :=
  if tables.isEmpty then some none else (readTables column tables).map some

/-- `FilterSetBuilder::build`, utils.rs:67-81 -/
def FilterSet.build (source : Option Path) (column : Option Bytes) (allow deny : List Table) : Option FilterSet :=
  match readFilterList column allow with
  | none => none
  | some a =>
    match readFilterList column deny with
    | none => none
    | some d => some ⟨a, d, source.getD Path.ppnPath⟩

/-! ## filter expressions of the commands -/

/-- the filter expressions among `FilterOpts`, cli.rs:120-142 -/
structure FilterTexts where
  where_ : Option Bytes
  and : List Bytes
  or : List Bytes
  not : List Bytes

/-- the attributes `requires` and `conflicts_with`, cli.rs:124-142 -/
def FilterTexts.Accepted (t : FilterTexts) : Prop :=
  (t.and ≠ [] ∨ t.or ≠ [] ∨ t.not ≠ [] → t.where_.isSome = true) ∧ (t.or = [] ∨ (t.and = [] ∧ t.not = []))

/-- `RecordMatcherBuilder::with_transform` and the calls in cli.rs:154-161,
filter.rs:209-214 -/
def buildMatcher (rx : Bytes → Bool) (f : Bytes → Bytes) (s : Levels) (base : Bytes) (ands ors nots : List Bytes) :
    Option RecordMatcher × Levels :=
  RecordMatcher.build rx s (f base) [.and (ands.map f), .or (ors.map f), .not (nots.map f)]

/-- `FilterOpts::matcher`, cli.rs:145-167; the outer `none` is an error.  All callers
have no predicate. -/
def FilterTexts.matcher (rx : Bytes → Bool) (f : Bytes → Bytes) (s : Levels) (t : FilterTexts) :
    Option (Option RecordMatcher) × Levels :=
  match t.where_ with
  | some w =>
    match buildMatcher rx f s w t.and t.or t.not with
    | (some m, s') => (some (some m), s')
    | (none, s') => (none, s')
  | none => (some none, s)

/-! ## the command `filter` -/

/-- the arguments of `filter`, filter.rs:12-158, as far as they are used before the
record loop; `exprFile` is the content of the file of `--file` -/
structure FilterArgs where
  skip : Bool
  limit : Nat
  invert : Bool
  tee : Bool
  keep : Option Bytes
  discard : Option Bytes
  exprFile : Option Bytes
  and : List Bytes
  or : List Bytes
  not : List Bytes
  filter : Bytes
  filenames : List Bytes

namespace FilterArgs

/-- clap: the first positional argument is the expression, with the default `""`;
the others are the file names, with the default `-`; filter.rs:147-157 -/
def positionals (a : FilterArgs) (args : List Bytes) : FilterArgs :=
  match args with
  | [] => { a with filter := [], filenames := [bs "-"] }
  | x :: xs => { a with filter := x, filenames := if xs.isEmpty then [bs "-"] else xs }

/-- the expression and the names of the files, filter.rs:191-207 -/
def sources (a : FilterArgs) : Bytes × List Bytes :=
  match a.exprFile with
  | some content =>
    (content,
      if !a.filter.isEmpty then
        if a.filenames ≠ [bs "-"] then a.filter :: a.filenames else [a.filter]
      else a.filenames)
  | none => (a.filter, a.filenames)

/-- `parse_predicates` of an optional list, utils.rs:201-206 -/
def predicates (trim : Bytes → Bytes) : Option Bytes → Option (List FieldPred)
  | none => some []
  | some text => parsePredicates trim text

/-- filter.rs:161-218: everything before the record loop; `none` is an error.  The
lists and the matcher options are given. -/
def prepare (rx : Bytes → Bool) (trim : Bytes → Bytes) (tr : NForm → Bytes → Bytes) (cfg : Config)
    (E₀ E : Env) (o : Opts) (set : FilterSet) (s : Levels) (a : FilterArgs) : Option FilterCmd :=
  match predicates trim a.discard with
  | none => none
  | some discard =>
    match predicates trim a.keep with
    | none => none
    | some keep =>
      match (buildMatcher rx (translit tr cfg.normalization) s a.sources.1 a.and a.or a.not).1 with
      | none => none
      | some m => some ⟨a.skip || cfg.skipInvalid, a.invert, a.limit, a.tee, E₀, E, o, set, m, discard, keep⟩

end FilterArgs
end Pica
