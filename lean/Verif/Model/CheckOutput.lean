import Verif.Model.Check
import Verif.Model.Args

/-! Models `crates/pica-cli/src/commands/check/writer/mod.rs` and how rule sets are
initialised, `set.rs:33-62`, `rule.rs:41-48` and `checks/allow.rs:35-47`. -/

namespace Pica

/-! ## the writer of the reports -/

/-- `Writer`, writer/mod.rs:92-95, with the delimiter of `CsvWriter` -/
inductive ReportFormat where
  | csv (delimiter : Byte)
  | txt
deriving DecidableEq, Repr

/-- `Writer::from_path`, writer/mod.rs:98-114; without a file (`none`) the output is
written to standard output; a name that is not UTF-8 counts as empty -/
def ReportFormat.ofPath (path : Option Bytes) : ReportFormat :=
  let s := match path with
    | some p => if utf8Valid p then p else []
    | none => []
  if (bs ".txt").isSuffixOf s then .txt
  else if (bs ".tsv").isSuffixOf s then .csv 0x09
  else .csv 0x2C

/-- `Level` as serde writes it, rule.rs:10-17 -/
def CheckLevel.text : CheckLevel → Bytes
  | .error => bs "error"
  | .warning => bs "warning"
  | .info => bs "info"

/-- the names of the fields of `Record`, writer/mod.rs:9-15 -/
def reportHeader : List Bytes := [bs "ppn", bs "rule", bs "level", bs "message"]

/-- the fields of `Record` as serde writes them; an absent value is an empty field -/
def Report.row (r : Report) : List Bytes := [r.ppn.getD [], r.rule, r.level.text, r.message.getD []]

/-- `csv::Writer`: whether the header has been written, and the rows; how a row is
quoted is in Model/Csv -/
structure ReportWriter where
  format : ReportFormat
  header : Bool
  rows : List (List Bytes)
deriving DecidableEq, Repr

/-- `Writer::write_record`, writer/mod.rs:116-124, 47-52 and 79-85; `serialize` writes the header
before the first record, `write_record` of a text file never does -/
def ReportWriter.write (w : ReportWriter) (r : Report) : ReportWriter :=
  match w.format with
  | .csv _ => if w.header then { w with rows := w.rows ++ [r.row] }
    else { w with header := true, rows := w.rows ++ [reportHeader, r.row] }
  | .txt => { w with rows := w.rows ++ [[r.ppn.getD []]] }

/-- all reports of a run, check/mod.rs:53 and 126-146 -/
def writeReports (path : Option Bytes) (reports : List Report) : ReportWriter :=
  reports.foldl ReportWriter.write ⟨ReportFormat.ofPath path, false, []⟩

/-! ## initialising the rules -/

/-- a check as it is read from TOML: the values of `Allow` are not yet there -/
inductive RawCheck where
  | allow (E : Env) (o : Opts) (path : Path) (filename column : Bytes)
  | other (c : Checks)

/-- a rule as it is read from TOML, rule.rs:19-38 -/
structure RawRule where
  tags : Option (List Bytes)
  level : CheckLevel
  check : RawCheck

/-- `Allow::initialize`, allow.rs:36-47, called by `Rule::initialize`, rule.rs:42-48;
`tables` gives the data frame of a file, `none` is an error -/
def RawCheck.initialize (tables : Bytes → Option Table) : RawCheck → Option Checks
  | .other c => some c
  | .allow E o path filename column =>
    match tables filename with
    | none => none
    | some t =>
      match readFilterList (some column) [t] with
      | some (some values) => some (.allow E o path values)
      | _ => none

/-- the loop of `RuleSet::new`, set.rs:56-59: the name of the rule becomes its `id` -/
def initRules (tables : Bytes → Option Table) : List (Bytes × RawRule) → Option (List CheckRule)
  | [] => some []
  | (id, r) :: rs =>
    match r.check.initialize tables with
    | none => none
    | some c => (initRules tables rs).map (fun l => ⟨id, r.tags, r.level, c⟩ :: l)

/-- `RuleSet::new`, set.rs:33-62, after the text has been read as TOML -/
def RuleSet.load (tables : Bytes → Option Table) (scope : Option RecordMatcher) (fast : Bool)
    (rules : List (Bytes × RawRule)) : Option RuleSet :=
  (initRules tables rules).map (fun l => ⟨scope, fast, l⟩)

end Pica
