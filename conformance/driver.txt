import Lean.Data.Json
import Verif.Conformance.Base
import Verif.Model.Execute
import Verif.Model.Csv
import Verif.Model.XmlText
import Verif.Model.ListFile
import Verif.Model.Convert
import Verif.Model.Concat
import Verif.Model.Stream
open Lean Pica Pica.Conformance

def hexVal (c : Char) : Nat := if c.isDigit then c.toNat - 48 else c.toNat - 87
def unhexAux : List Char → Bytes
  | a :: b :: r => UInt8.ofNat (hexVal a * 16 + hexVal b) :: unhexAux r
  | _ => []
def unhex (s : String) : Bytes := unhexAux s.toList
def hexOf (b : Bytes) : String := String.ofList (b.flatMap (fun c => (hexByte c).map (fun x => Char.ofNat x.toNat)))

def js (j : Json) (k : String) : Json := (j.getObjVal? k).toOption.getD .null
def gS (j : Json) (k : String) : String := ((js j k).getStr?).toOption.getD ""
def gB (j : Json) (k : String) : Bool := ((js j k).getBool?).toOption.getD false
def gN (j : Json) (k : String) (d : Nat := 0) : Nat := ((js j k).getNat?).toOption.getD d
def gA (j : Json) (k : String) : List Json := (((js j k).getArr?).toOption.getD #[]).toList
def gH (j : Json) (k : String) : Bytes := unhex (gS j k)
def gOH (j : Json) (k : String) : Option Bytes := match (js j k) with | .str s => some (unhex s) | _ => none
def sJ (j : Json) : String := (j.getStr?).toOption.getD ""
def aJ (j : Json) : List Json := ((j.getArr?).toOption.getD #[]).toList
def gHs (j : Json) (k : String) : List Bytes := (gA j k).map (fun x => unhex (sJ x))

def nform (s : String) : Option NForm := NForm.parse (bs s)

def trimU (t : Bytes) : Bytes := trimText t

def mkWorld (j : Json) : World where
  rx := rx
  base := fenv
  Num := ℚ
  above := fun a b => decide (b < a)
  percent := percentage
  eighty := fl (8 / 10)
  score := simScore lowerText
  tr := fun nf t =>
    let tbl := gA j "tr"
    let key := hexOf t
    let name := String.ofList ((nf.print).map (fun x => Char.ofNat x.toNat))
    match tbl.find? (fun e => match aJ e with | [a, b, _] => sJ a == name && sJ b == key | _ => false) with
    | some e => match aJ e with | [_, _, c] => unhex (sJ c) | _ => t
    | none => if t.all (fun b => decide (b < 128)) then t else dbgTrace ("MISS tr " ++ name ++ " " ++ key) (fun _ => t)
  trim := trimU
  lossy := lossyText
  list := fun name =>
    match (gA j "lists").find? (fun e => match aJ e with | a :: _ => sJ a == hexOf name | _ => false) with
    | some e => match aJ e with
      | [_, .null] => none
      | [_, t] => some ((aJ t).map (fun c => match aJ c with
          | [nm, cells] => (unhex (sJ nm), (aJ cells).map (fun x => match x with | .str s => some (unhex s) | _ => none))
          | _ => ([], [])))
      | _ => none
    | none => none

def mkTexts (j : Json) : FilterTexts := ⟨gOH j "where", gHs j "and", gHs j "or", gHs j "not"⟩
def mkOpts (j : Json) : FilterOpts :=
  ⟨gB j "skip", gN j "limit", gB j "ignoreCase", gN j "strsim" 80, gHs j "allow", gHs j "deny", gOH j "column", gOH j "source", mkTexts j⟩
def mkCfg (j : Json) : Config := ⟨gB j "cfgSkip", nform (gS j "cfgNorm")⟩

def out (status : String) (o : Bytes) (extra : List (String × Json) := []) : Json :=
  Json.mkObj ([("status", .str status), ("out", .str (hexOf o))] ++ extra)

def fromLoop {S : Type} (r : LoopResult S) (f : S → Bytes) (ex : S → List (String × Json) := fun _ => []) : Json :=
  match r with
  | .ok s => out "ok" (f s) (ex s)
  | .err e s => out ("err " ++ toString (repr e)) (f s) (ex s)
  | .panic => out "panic" []
def fromTable (r : Option (TableEnd × Bytes)) : Json :=
  match r with
  | none => out "panic" []
  | some (.ok, o) => out "ok" o
  | some (.csv, o) => out "err csv" o
  | some (.read e, o) => out ("err " ++ toString (repr e)) o
def prep : Json := out "prep" []
def storeJ (s : List (Bytes × Bytes)) : List (String × Json) :=
  [("files", .arr (s.map (fun x => Json.arr #[.str (hexOf x.1), .str (hexOf x.2)])).toArray)]

def numericText (t : Bytes) : Bool :=
  (!t.isEmpty) && t.all (fun b => decide (48 ≤ b) && decide (b ≤ 57) || b == 46 || b == 45)

def quotesOf : String → Quotes
  | "always" => .always
  | "never" => .never
  | "non-numeric" => .nonNumeric
  | _ => .necessary

instance : Inhabited TVal := ⟨.date⟩
partial def tval (j : Json) : TVal :=
  match j.getObjVal? "t" with
  | .ok (.str "s") => .str (gH j "v")
  | .ok (.str "i") => .int (((js j "v").getInt?).toOption.getD 0)
  | .ok (.str "f") => .float 0
  | .ok (.str "b") => .bool (gB j "v")
  | .ok (.str "a") => .arr ((gA j "v").map tval)
  | .ok (.str "t") => .table ((gA j "v").map (fun e => match aJ e with | [k, v] => (unhex (sJ k), tval v) | _ => ([], .date)))
  | _ => .date

def runReq (j : Json) : Json :=
  let W := mkWorld j
  let cfg := mkCfg j
  let z := Levels.zero
  let files : List (String × Bytes) := (gA j "files").map (fun e => match aJ e with | [n, c] => (sJ n, unhex (sJ c)) | _ => ("", []))
  let o := mkOpts j
  let copts : CsvOpts := ⟨tableDelimiter (gB j "tsv"), quotesOf (gS j "quotes"), numericText⟩
  let header := (gOH j "header").map (headerRow trimU)
  let sha := fun (t : Bytes) => match (gA j "sha").find? (fun e => match aJ e with | a :: _ => sJ a == hexOf t | _ => false) with
    | some e => match aJ e with | [_, h] => unhex (sJ h) | _ => []
    | none => dbgTrace ("MISS sha " ++ hexOf t) (fun _ => [])
  match gS j "cmd" with
  | "filter" =>
    let a : FilterArgs := ⟨gB j "skip", gN j "limit", gB j "invert", gB j "tee", gOH j "keep", gOH j "discard", gOH j "exprFile", gHs j "and", gHs j "or", gHs j "not", [], []⟩
    let a := a.positionals (gHs j "positional")
    let l : FilterLists := ⟨gB j "ignoreCase", gN j "strsim" 80, gHs j "allow", gHs j "deny", gOH j "column", gOH j "source"⟩
    let names := a.sources.2
    let files := names.map (fun n => (hexOf n, ((files.find? (fun f => f.1 == hexOf n)).map (·.2)).getD []))
    match a.command W cfg z l with
    | none => prep
    | some c => fromLoop (c.run files) (fun s => s.1.out) (fun s => match s.1.tee with | some t => [("tee", .str (hexOf t))] | none => [])
  | "count" =>
    match CountArgs.prepare W cfg z ⟨gB j "records", gB j "fields", gB j "subfields", gB j "csv", gB j "tsv", gB j "noHeader", o⟩ with
    | none => prep
    | some c => fromLoop (c.run files) id
  | "describe" =>
    match DescribeArgs.prepare W id cfg z ⟨gOH j "keep", gOH j "discard", o⟩ with
    | none => prep
    | some c => fromLoop (c.run files) (fun d =>
        let hd : List Bytes := bs "field" :: d.codes.map (fun c => [c])
        let rows : List (List Bytes) := d.rows.map (fun (r : Bytes × List Nat) => r.1 :: r.2.map decimal)
        (copts.rows none (hd :: rows)).2)
  | "explode" =>
    match ExplodeArgs.prepare W cfg z ⟨gOH j "keep", gOH j "discard", (match gS j "level" with | "main" => .main | "local" => .«local» | _ => .copy), o⟩ with
    | none => prep
    | some c => fromLoop (c.run files) (·.1)
  | "frequency" =>
    match FrequencyArgs.prepare W id cfg z ⟨gB j "squash", gB j "merge", gH j "separator", gB j "unique", gB j "reverse", gN j "num", gN j "threshold", nform (gS j "nf"), gH j "query", o⟩ with
    | none => prep
    | some c => fromTable (c.tableText copts header files)
  | "select" =>
    match SelectArgs.prepare W (fun r => r.foldl (fun n c => (c.foldl (fun n b => n * 300 + b.toNat + 2) n) * 300 + 1) 1) cfg z
        ⟨gB j "squash", gB j "merge", gH j "separator", gB j "noEmptyColumns", gB j "unique", nform (gS j "nf"), gH j "query", o⟩ with
    | none => prep
    | some c => fromTable (c.table copts header files)
  | "hash" =>
    match HashArgs.prepare W sha cfg z ⟨o⟩ with
    | none => prep
    | some c => fromTable (c.table copts (header.getD [bs "ppn", bs "hash"]) files)
  | "partition" =>
    match PartitionArgs.prepare W cfg z ⟨gB j "gzip", gOH j "template", gH j "path", o⟩ with
    | none => prep
    | some c => fromLoop (c.run files) (fun _ => []) (fun s => storeJ (c.files s))
  | "split" =>
    match SplitArgs.prepare W cfg z ⟨gB j "gzip", gOH j "template", gN j "chunkSize", o⟩ with
    | none => prep
    | some c => fromLoop (c.run files) (fun _ => []) (fun s => storeJ s.store)
  | "print" =>
    match PrintArgs.prepare W cfg z ⟨nform (gS j "nf"), o⟩ with
    | none => prep
    | some c => fromLoop (c.run files) (fun s => s.out)
  | "sample" =>
    match SampleArgs.prepare W (fun n => n) cfg z ⟨gN j "size", o⟩ with
    | none => prep
    | some c => fromLoop (c.run files) id
  | "slice" =>
    match SliceArgs.prepare W cfg z ⟨gN j "start", gN j "end", gN j "length", o⟩ with
    | none => prep
    | some c => fromLoop (c.run files) (fun s => s.out)
  | "concat" =>
    let c : ConcatCmd := ⟨gB j "skip" || cfg.skipInvalid, gB j "unique", (if gS j "strategy" == "hash" then .hash else .idn), gB j "tee", W.env W.eighty, ⟨false⟩, id, sha⟩
    fromLoop (c.run files) (fun s => s.out) (fun s => match s.tee with | some t => [("tee", .str (hexOf t))] | none => [])
  | "invalid" => out "ok" (invalidRun files [])
  | "convert" =>
    match (match gS j "to" with | "plus" => some OutFormat.plus | "binary" => some .binary | "import" => some .«import» | "json" => some .json | "plain" => some .plain | "xml" => some .xml | _ => none) with
    | none => prep
    | some f => fromLoop (({ Convert.xmlCmd Convert.xmlEscape (gB j "skip" || cfg.skipInvalid) id with «to» := f } : ConvertCmd).run files) id
  | "check" =>
    let strp := fun (f t : Bytes) => match (gA j "strptime").find? (fun e => match aJ e with | [a, b, _] => sJ a == hexOf f && sJ b == hexOf t | _ => false) with
      | some e => (match aJ e with | [_, _, .bool c] => c | _ => false)
      | none => dbgTrace ("MISS sp " ++ hexOf f ++ " " ++ hexOf t) (fun _ => false)
    let isForm := fun (nf : NForm) (t : Bytes) => W.tr nf t == t
    let R : RuleEnv := ⟨rx, fun _ => W.env W.eighty, fun _ => W.fmtEnv W.eighty, strp, isForm⟩
    let toml := fun (t : Bytes) => match (gA j "toml").find? (fun e => match aJ e with | a :: _ => sJ a == hexOf t | _ => false) with
      | some e => match aJ e with | [_, .null] => none | [_, v] => (match tval v with | .table l => some l | _ => none) | _ => none
      | none => dbgTrace ("MISS toml " ++ hexOf t) (fun _ => none)
    match CheckArgs.prepare W R toml id ((env 80).regexSet false) ⟨W.env W.eighty, lossyText, id, id, trimU⟩ cfg z
      ⟨(gA j "rules").map (fun x => match x with | .str s => some (unhex s) | _ => none), gHs j "filter", gOH j "tags", o⟩ with
    | none => prep
    | some c => fromLoop (c.run files) (fun rs => ((writeReports (gOH j "output") rs).text numericText).2)
  | "config" =>
    match (ConfigArgs.execute ⟨gB j "get", gB j "unset", gB j "set", gH j "name", gOH j "value"⟩ cfg) with
    | .saved c => out "saved" [] [("cfgSkip", .bool c.skipInvalid), ("cfgNorm", .str (match c.normalization with | some n => String.ofList (n.print.map (fun x => Char.ofNat x.toNat)) | none => ""))]
    | .printed l => out "ok" (l ++ [LF])
    | .error => out "prep" []
    | .panic => out "panic" []
  | c => out ("unknown " ++ c) []

partial def loop (h : IO.FS.Stream) (o : IO.FS.Stream) : IO Unit := do
  let line ← h.getLine
  if line.isEmpty then return
  match Json.parse line with
  | .error e => o.putStrLn ("{\"status\":\"bad json " ++ e ++ "\"}")
  | .ok j => o.putStrLn (runReq j).compress
  o.flush
  loop h o

def main : IO Unit := do loop (← IO.getStdin) (← IO.getStdout)
