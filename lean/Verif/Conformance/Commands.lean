import Verif.Conformance.Base
import Verif.Model.Execute
import Verif.Model.Csv
import Verif.Model.XmlText
import Verif.Model.ListFile
import Verif.Model.Convert
import Verif.Model.Concat
import Verif.Model.Stream

/-!
The commands of the model as a function from the arguments and the files of a call to what is
written, with finite tables standing in for the parts outside of the model (normalization, digest,
dates, TOML). The tests of the repository that run the program (crates/pica-cli/tests) are evaluated
on it. This is testing; no property rests on it.
-/

namespace Pica.Conformance

/-- a call of the program -/
structure Req where
  cmd : String
  /-- the files, by name -/
  files : List (String × Bytes) := []
  /-- the configuration -/
  cfg : Config := ⟨false, none⟩
  skip : Bool := false
  limit : Nat := 0
  ignoreCase : Bool := false
  strsim : Nat := 75
  allow : List Bytes := []
  deny : List Bytes := []
  column : Option Bytes := none
  source : Option Bytes := none
  pred : Option Bytes := none
  ands : List Bytes := []
  ors : List Bytes := []
  nots : List Bytes := []
  keep : Option Bytes := none
  discard : Option Bytes := none
  header : Option Bytes := none
  query : Bytes := []
  separator : Bytes := bs "|"
  template : Option Bytes := none
  path : Bytes := []
  name : Bytes := []
  value : Option Bytes := none
  tags : Option Bytes := none
  exprFile : Option Bytes := none
  output : Option Bytes := none
  positional : List Bytes := []
  rules : List (Option Bytes) := []
  ruleFilter : List Bytes := []
  tsv : Bool := false
  csv : Bool := false
  unique : Bool := false
  reverse : Bool := false
  merge : Bool := false
  squash : Bool := false
  records : Bool := false
  fields : Bool := false
  subfields : Bool := false
  gzip : Bool := false
  get : Bool := false
  set : Bool := false
  unset : Bool := false
  noHeader : Bool := false
  noEmptyColumns : Bool := false
  tee : Bool := false
  invert : Bool := false
  hashed : Bool := false
  num : Nat := 0
  threshold : Nat := 0
  start : Nat := 0
  stop : Nat := 0
  length : Nat := 0
  size : Nat := 0
  chunkSize : Nat := 0
  level : Level := .main
  quotes : Quotes := .necessary
  nf : Option NForm := none
  «to» : OutFormat := .plus
  /-- the lists that are read -/
  lists : List (Bytes × Option Table) := []
  /-- normal forms of texts that are not plain ASCII -/
  tr : List (NForm × Bytes × Bytes) := []
  /-- digests -/
  sha : List (Bytes × Bytes) := []
  /-- dates: format, text, whether the text is such a date -/
  dates : List (Bytes × Bytes × Bool) := []
  /-- rule files and what they say -/
  toml : List (Bytes × Option TTable) := []

/-- how a call ends -/
inductive End where
  | ok
  /-- an error before the first record is read -/
  | refused
  /-- an error while reading or writing -/
  | failed
  | panic
  /-- the configuration is written -/
  | saved (c : Config)
deriving DecidableEq

/-- the answer: how the call ends, what is written to the output, the copy of `--tee`, and other files -/
structure Answer where
  «end» : End
  out : Bytes := []
  tee : Option Bytes := none
  files : List (Bytes × Bytes) := []
deriving DecidableEq

/-- the first entry with that key -/
def lookupD {α : Type} (t : List (Bytes × α)) (k : Bytes) (d : α) : α :=
  match t with
  | [] => d
  | (a, v) :: r => if a = k then v else lookupD r k d

/-- a normal form by table -/
def trBy (t : List (NForm × Bytes × Bytes)) (nf : NForm) (k : Bytes) : Bytes :=
  match t with
  | [] => k
  | (f, a, v) :: r => if f = nf ∧ a = k then v else trBy r nf k

/-- a date by table -/
def dateBy (t : List (Bytes × Bytes × Bool)) (f k : Bytes) : Bool :=
  match t with
  | [] => false
  | (g, a, v) :: r => if g = f ∧ a = k then v else dateBy r f k

/-- the stand-ins -/
def Req.world (q : Req) : World where
  rx := rx
  base := fenv
  Num := ℚ
  above := fun a b => decide (b < a)
  percent := percentage
  eighty := fl (8 / 10)
  score := simScore lowerText
  tr := trBy q.tr
  trim := trimText
  lossy := lossyText
  list := fun name => lookupD q.lists name none

/-- the filter options -/
def Req.opts (q : Req) : FilterOpts :=
  ⟨q.skip, q.limit, q.ignoreCase, q.strsim, q.allow, q.deny, q.column, q.source, ⟨q.pred, q.ands, q.ors, q.nots⟩⟩

/-- the end of a loop -/
def Answer.ofLoop {S : Type} (r : LoopResult S) (f : S → Answer) : Answer :=
  match r with
  | .ok s => f s
  | .err _ s => { f s with «end» := .failed }
  | .panic => ⟨.panic, [], none, []⟩

/-- the end of a table -/
def Answer.ofTable (r : Option (TableEnd × Bytes)) : Answer :=
  match r with
  | none => ⟨.panic, [], none, []⟩
  | some (.ok, o) => ⟨.ok, o, none, []⟩
  | some (_, o) => ⟨.failed, o, none, []⟩

/-- the answer of a command that is refused -/
def refused : Answer := ⟨.refused, [], none, []⟩

/-- whether the csv crate takes a cell for a number (a stand-in) -/
def numericText (t : Bytes) : Bool :=
  (!t.isEmpty) && t.all (fun b => decide (48 ≤ b) && decide (b ≤ 57) || b == 46 || b == 45)

/-- an injective code of rows -/
def rowCode (r : List Bytes) : Nat :=
  r.foldl (fun n c => (c.foldl (fun n b => n * 300 + b.toNat + 2) n) * 300 + 1) 1

/-- a call of the program -/
def Req.run (q : Req) : Answer :=
  let W := q.world
  let z := Levels.zero
  let o := q.opts
  let copts : CsvOpts := ⟨tableDelimiter q.tsv, q.quotes, numericText⟩
  let header := q.header.map (headerRow trimText)
  let sha := fun t => lookupD q.sha t []
  match q.cmd with
  | "filter" =>
    let a : FilterArgs := ⟨q.skip, q.limit, q.invert, q.tee, q.keep, q.discard, q.exprFile, q.ands, q.ors, q.nots, [], []⟩
    let a := a.positionals q.positional
    let l : FilterLists := ⟨q.ignoreCase, q.strsim, q.allow, q.deny, q.column, q.source⟩
    let files := a.sources.2.map (fun n => ("", ((q.files.find? (fun f => bs f.1 == n)).map (·.2)).getD []))
    match a.command W q.cfg z l with
    | none => refused
    | some c => Answer.ofLoop (c.run files) (fun s => ⟨.ok, s.1.out, s.1.tee, []⟩)
  | "count" =>
    match CountArgs.prepare W q.cfg z ⟨q.records, q.fields, q.subfields, q.csv, q.tsv, q.noHeader, o⟩ with
    | none => refused
    | some c => Answer.ofLoop (c.run q.files) (fun s => ⟨.ok, s, none, []⟩)
  | "describe" =>
    match DescribeArgs.prepare W id q.cfg z ⟨q.keep, q.discard, o⟩ with
    | none => refused
    | some c => Answer.ofLoop (c.run q.files) (fun d =>
        let hd : List Bytes := bs "field" :: d.codes.map (fun c => [c])
        let rows : List (List Bytes) := d.rows.map (fun (r : Bytes × List Nat) => r.1 :: r.2.map decimal)
        ⟨.ok, (copts.rows none (hd :: rows)).2, none, []⟩)
  | "explode" =>
    match ExplodeArgs.prepare W q.cfg z ⟨q.keep, q.discard, q.level, o⟩ with
    | none => refused
    | some c => Answer.ofLoop (c.run q.files) (fun s => ⟨.ok, s.1, none, []⟩)
  | "frequency" =>
    match FrequencyArgs.prepare W id q.cfg z ⟨q.squash, q.merge, q.separator, q.unique, q.reverse, q.num, q.threshold, q.nf, q.query, o⟩ with
    | none => refused
    | some c => Answer.ofTable (c.tableText copts header q.files)
  | "select" =>
    match SelectArgs.prepare W rowCode q.cfg z
        ⟨q.squash, q.merge, q.separator, q.noEmptyColumns, q.unique, q.nf, q.query, o⟩ with
    | none => refused
    | some c => Answer.ofTable (c.table copts header q.files)
  | "hash" =>
    match HashArgs.prepare W sha q.cfg z ⟨o⟩ with
    | none => refused
    | some c => Answer.ofTable (c.table copts (header.getD [bs "ppn", bs "hash"]) q.files)
  | "partition" =>
    match PartitionArgs.prepare W q.cfg z ⟨q.gzip, q.template, q.path, o⟩ with
    | none => refused
    | some c => Answer.ofLoop (c.run q.files) (fun s => ⟨.ok, [], none, c.files s⟩)
  | "split" =>
    match SplitArgs.prepare W q.cfg z ⟨q.gzip, q.template, q.chunkSize, o⟩ with
    | none => refused
    | some c => Answer.ofLoop (c.run q.files) (fun s => ⟨.ok, [], none, s.store⟩)
  | "print" =>
    match PrintArgs.prepare W q.cfg z ⟨q.nf, o⟩ with
    | none => refused
    | some c => Answer.ofLoop (c.run q.files) (fun s => ⟨.ok, s.out, none, []⟩)
  | "sample" =>
    match SampleArgs.prepare W (fun n => n) q.cfg z ⟨q.size, o⟩ with
    | none => refused
    | some c => Answer.ofLoop (c.run q.files) (fun s => ⟨.ok, s, none, []⟩)
  | "slice" =>
    match SliceArgs.prepare W q.cfg z ⟨q.start, q.stop, q.length, o⟩ with
    | none => refused
    | some c => Answer.ofLoop (c.run q.files) (fun s => ⟨.ok, s.out, none, []⟩)
  | "concat" =>
    let c : ConcatCmd := ⟨q.skip || q.cfg.skipInvalid, q.unique, (if q.hashed then .hash else .idn), q.tee,
      W.env W.eighty, ⟨false⟩, id, sha⟩
    Answer.ofLoop (c.run q.files) (fun s => ⟨.ok, s.out, s.tee, []⟩)
  | "invalid" => ⟨.ok, invalidRun q.files [], none, []⟩
  | "convert" =>
    let c : ConvertCmd := Convert.xmlCmd Convert.xmlEscape (q.skip || q.cfg.skipInvalid) id
    Answer.ofLoop (({ c with «to» := q.«to» } : ConvertCmd).run q.files) (fun s => ⟨.ok, s, none, []⟩)
  | "check" =>
    let isForm := fun (nf : NForm) (t : Bytes) => W.tr nf t == t
    let R : RuleEnv := ⟨rx, fun _ => W.env W.eighty, fun _ => W.fmtEnv W.eighty, dateBy q.dates, isForm⟩
    match CheckArgs.prepare W R (fun t => lookupD q.toml t none) id ((env 80).regexSet false)
      ⟨W.env W.eighty, lossyText, id, id, trimText⟩ q.cfg z ⟨q.rules, q.ruleFilter, q.tags, o⟩ with
    | none => refused
    | some c => Answer.ofLoop (c.run q.files) (fun rs => ⟨.ok, ((writeReports q.output rs).text numericText).2, none, []⟩)
  | "config" =>
    match ConfigArgs.execute ⟨q.get, q.unset, q.set, q.name, q.value⟩ q.cfg with
    | .saved c => ⟨.saved c, [], none, []⟩
    | .printed l => ⟨.ok, l ++ [LF], none, []⟩
    | .error => refused
    | .panic => ⟨.panic, [], none, []⟩
  | _ => refused

end Pica.Conformance
