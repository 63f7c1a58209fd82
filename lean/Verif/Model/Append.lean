import Verif.Model.Writer
import Verif.Model.Csv
import Verif.Model.FilterCmd
import Verif.Model.Concat
import Verif.Model.Count

/-!
# Output files of several runs

Runs of `filter`, `concat`, `select` and `count` with `--output`, one after the other.  The
input files have fixed contents: the output file is not one of them.  Only runs that
succeed are modelled here; what is left in the file otherwise is in Model/Output.
-/

namespace Pica

/-- a record writer for a path after the data has been written and `finish` has been
called, writer.rs:38-57 and 138-149 -/
def WBuilder.dataFile (z : Gzip) (b : WBuilder) (path data : Bytes) (fs : FileMap) : FileMap :=
  (b.fromPath path fs).1.finish z data (b.fromPath path fs).2

/-- the file that `count` and `select` open: `truncate(!append)` and `append(append)`,
count.rs:67-78 and select.rs:112-126, after the text has been written -/
def plainFile (append : Bool) (path text : Bytes) (fs : FileMap) : FileMap :=
  fs.set path ((if append then (fs path).getD [] else []) ++ text)

/-- output and `--tee` file -/
def WBuilder.teeFile (z : Gzip) (b : WBuilder) (path : Bytes) (tee : Option Bytes) (out : Bytes) (copy : Option Bytes)
    (fs : FileMap) : FileMap :=
  match tee, copy with
  | some p, some d => b.dataFile z p d (b.dataFile z path out fs)
  | _, _ => b.dataFile z path out fs

/-- the files after `Filter::execute`, filter.rs:175-190 and 249-275; `none` if the run
does not succeed -/
def FilterCmd.save (z : Gzip) (c : FilterCmd) (gzip append : Bool) (path : Bytes) (tee : Option Bytes)
    (files : List (String × Bytes)) (fs : FileMap) : Option FileMap :=
  match WCommand.filter.writer gzip append, c.run files with
  | .writer b, .ok s => some (b.teeFile z path tee s.1.out s.1.tee fs)
  | _, _ => none

/-- the files after `Concat::execute`, concat.rs:95-107 and 134-153 -/
def ConcatCmd.save (z : Gzip) (c : ConcatCmd) (append : Bool) (path : Bytes) (tee : Option Bytes)
    (files : List (String × Bytes)) (fs : FileMap) : Option FileMap :=
  match WCommand.concat.writer false append, c.run files with
  | .writer b, .ok s => some (b.teeFile z path tee s.out s.tee fs)
  | _, _ => none

/-- the files after `Select::execute`, select.rs:154-161 and 209-240 -/
def SelectCmd.save (c : SelectCmd) (o : CsvOpts) (header : Option (List Bytes)) (append : Bool) (path : Bytes)
    (files : List (String × Bytes)) (fs : FileMap) : Option FileMap :=
  match c.table o header files with
  | some (.ok, text) => some (plainFile append path text fs)
  | _ => none

/-- the files after `Count::execute`, count.rs:67-78 and 130-158 -/
def CountCmd.save (c : CountCmd) (append : Bool) (path : Bytes) (files : List (String × Bytes)) (fs : FileMap) :
    Option FileMap :=
  match c.run files with
  | .ok text => some (plainFile append path text fs)
  | _ => none

/-- several runs, one after the other, as long as they succeed -/
def runsAfter (run : List (String × Bytes) → FileMap → Option FileMap) :
    List (List (String × Bytes)) → FileMap → Option FileMap
  | [], fs => some fs
  | files :: more, fs => (run files fs).bind (runsAfter run more)

end Pica
