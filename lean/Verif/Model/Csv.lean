import Verif.Model.Select
import Verif.Model.Frequency
import Verif.Model.Print
import Verif.Model.CheckOutput
import Verif.Model.Predicates
import Verif.Model.Files
import Verif.Model.Exit

/-!
# The text of CSV and TSV outputs

Models how select.rs, frequency.rs, hash.rs and check/writer/mod.rs use `csv::Writer`
(csv 1.4), with the header and the styles of quoting.  The writer of the csv crate is
modelled from its documentation: quotes are doubled, a row of one empty cell is written
as `""`, rows end with a line feed, and a row of another width than the first one is an
error, which is found when its cells have already been written.
-/

namespace Pica

/-- `Quotes`, select.rs:15-34 -/
inductive Quotes | always | necessary | nonNumeric | never
deriving DecidableEq, Repr

/-- the settings of `csv::WriterBuilder`; `numeric` says which cells the csv crate takes for
numbers -/
structure CsvOpts where
  delimiter : Byte
  quotes : Quotes
  numeric : Bytes → Bool

/-- the quotation mark -/
abbrev QUOTE : Byte := 0x22

/-- the bytes that need quotes: the delimiter, quotes, line feed and carriage return -/
def csvSpecial (d c : Byte) : Bool := c == d || c == QUOTE || c == 0x0D || c == LF

/-- `should_quote` of the csv crate -/
def CsvOpts.shouldQuote (o : CsvOpts) (cell : Bytes) : Bool :=
  match o.quotes with
  | .always => true
  | .never => false
  | .necessary => cell.any (csvSpecial o.delimiter)
  | .nonNumeric => !o.numeric cell

/-- a cell in quotes -/
def csvQuoted (cell : Bytes) : Bytes :=
  QUOTE :: (cell.flatMap (fun c => if c = QUOTE then [QUOTE, QUOTE] else [c]) ++ [QUOTE])

/-- a cell -/
def CsvOpts.cell (o : CsvOpts) (cell : Bytes) : Bytes :=
  if o.shouldQuote cell then csvQuoted cell else cell

/-- the cells of a row with delimiters -/
def CsvOpts.cells (o : CsvOpts) : List Bytes → Bytes
  | [] => []
  | [x] => o.cell x
  | x :: y :: xs => o.cell x ++ o.delimiter :: o.cells (y :: xs)

/-- a row -/
def CsvOpts.row (o : CsvOpts) (row : List Bytes) : Bytes :=
  (if (o.cells row).isEmpty then [QUOTE, QUOTE] else o.cells row) ++ [LF]

/-- `write_record` for several rows, where `width` is the width of the first row of the
writer: whether it succeeds, and the text -/
def CsvOpts.rows (o : CsvOpts) : Option Nat → List (List Bytes) → Bool × Bytes
  | _, [] => (true, [])
  | width, row :: rows =>
    if width.getD row.length = row.length then
      ((o.rows (some row.length) rows).1, o.row row ++ (o.rows (some row.length) rows).2)
    else (false, o.cells row)

/-- the header given by an option: `header.split(',').map(str::trim)`, select.rs:160,
frequency.rs:201, hash.rs:64 -/
def headerRow (trim : Bytes → Bytes) (header : Bytes) : List Bytes := (splitComma header).map trim

/-- the delimiter, select.rs:155, frequency.rs:145, hash.rs:61 -/
def tableDelimiter (tsv : Bool) : Byte := if tsv then 0x09 else 0x2C

/-- how a command that writes a table ends -/
inductive TableEnd
  | ok
  /-- an error of the csv crate -/
  | csv
  | read (e : ReadErr)
deriving DecidableEq, Repr

/-- the exit status, `CliError::Csv` and `CliError::ReadPica` -/
def TableEnd.status : TableEnd → Nat
  | .ok => exitStatus (.ok ())
  | .csv => exitStatus (.error (.csv none))
  | .read _ => exitStatus (.error (.readPica none))

/-- the end of a command whose loop ended with `e` after the rows have been written; an
error of the csv crate comes first.  The buffer of `csv::Writer` is written when it is
dropped. -/
def tableEnd (o : CsvOpts) (rows : List (List Bytes)) (e : TableEnd) : TableEnd × Bytes :=
  (if (o.rows none rows).1 then e else .csv, (o.rows none rows).2)

/-- the output of `select`: the header comes first, then the rows in the loop,
select.rs:154-161 and 209-224; `none` is a panic, even where the csv crate would have ended the run before it -/
def SelectCmd.table (c : SelectCmd) (o : CsvOpts) (header : Option (List Bytes))
    (files : List (String × Bytes)) : Option (TableEnd × Bytes) :=
  match c.run files with
  | .ok s => some (tableEnd o (header.toList ++ s.out) .ok)
  | .err e s => some (tableEnd o (header.toList ++ s.out) (.read e))
  | .panic => none

/-- a row of `frequency`, frequency.rs:227-234 -/
def freqRow (x : Row × Nat) : List Bytes := x.1 ++ [decimal x.2]

/-- the output of `frequency`: header and rows are written after the loop,
frequency.rs:200-235 -/
def FreqCmd.tableText (c : FreqCmd) (o : CsvOpts) (header : Option (List Bytes))
    (files : List (String × Bytes)) : Option (TableEnd × Bytes) :=
  match c.run files with
  | .ok out => some (tableEnd o (header.toList ++ out.map freqRow) .ok)
  | .err e _ => some (.read e, [])
  | .panic => none

/-- the output of `hash`: there is always a header, hash.rs:64 and 100-106 -/
def HashCmd.table (c : HashCmd) (o : CsvOpts) (header : List Bytes) (files : List (String × Bytes)) :
    Option (TableEnd × Bytes) :=
  match c.run files with
  | .ok s => some (tableEnd o (header :: s.out.map (fun x => [x.1, x.2])) .ok)
  | .err e s => some (tableEnd o (header :: s.out.map (fun x => [x.1, x.2])) (.read e))
  | .panic => none

/-- the settings of the writers of `check`, writer/mod.rs:39-42 and 72-74 -/
def ReportFormat.opts (numeric : Bytes → Bool) : ReportFormat → CsvOpts
  | .csv d => ⟨d, .necessary, numeric⟩
  | .txt => ⟨0x2C, .necessary, numeric⟩

/-- the text of the reports -/
def ReportWriter.text (numeric : Bytes → Bool) (w : ReportWriter) : Bool × Bytes :=
  (w.format.opts numeric).rows none w.rows

end Pica
