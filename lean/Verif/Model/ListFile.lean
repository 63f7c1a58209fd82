import Verif.Model.Args
import Verif.Model.CheckOutput

/-! Models how the format of a file is chosen: lists of `--allow`, `--deny` and of the check
`allow`, utils.rs:98-141, and the table of `describe`, describe.rs:149-190.  The readers of
polars are parameters. -/

namespace Pica

/-- the four branches of utils.rs:110-138 -/
inductive ListKind | ipc | tsv | txt | csv
deriving DecidableEq, Repr

/-- the branch for a file name, utils.rs:109-138; a name that is not UTF-8 counts as empty -/
def ListKind.ofPath (path : Bytes) : ListKind :=
  let s := if utf8Valid path then path else []
  if (bs "ipc").isSuffixOf s then .ipc
  else if (bs "tsv").isSuffixOf s || (bs "tsv.gz").isSuffixOf s then .tsv
  else if (bs "txt").isSuffixOf s || (bs "txt.gz").isSuffixOf s then .txt
  else .csv

/-- the readers of polars: `IpcReader`, and `CsvReader` with separator and header;
`none` is an error.  All columns are read as strings (`with_infer_schema_length(Some(0))`). -/
structure ListReader where
  ipc : Bytes → Option Table
  csv : (separator : Byte) → (header : Bool) → Bytes → Option Table

/-- `df.rename(from, to)`: an error if there is no such column -/
def Table.rename (old new : Bytes) : Table → Option Table
  | [] => none
  | c :: t => if c.1 == old then some ((new, c.2) :: t) else (Table.rename old new t).map (c :: ·)

/-- the data frame of a file, utils.rs:108-141 -/
def ListReader.read (R : ListReader) (path content : Bytes) : Option Table :=
  match ListKind.ofPath path with
  | .ipc => R.ipc content
  | .tsv => R.csv 0x09 true content
  | .txt => (R.csv 0x2C false content).bind (Table.rename (bs "column_1") (bs "ppn"))
  | .csv => R.csv 0x2C true content

/-- how `describe` writes its table -/
inductive DescribeKind | screen | tsv | csv | ipc
deriving DecidableEq, Repr

/-- describe.rs:149-190; `to_string_lossy` does not change whether a name ends with `.tsv` -/
def DescribeKind.of (output : Option Bytes) (csv tsv : Bool) : DescribeKind :=
  match output with
  | none => .screen
  | some path =>
    if (bs ".tsv").isSuffixOf path || tsv then .tsv
    else if (bs ".csv").isSuffixOf path || csv then .csv
    else .ipc

/-- the attributes `requires` and `conflicts_with`, describe.rs:28-33 -/
def DescribeKind.Accepted (output : Option Bytes) (csv tsv : Bool) : Prop :=
  ((csv || tsv) = true → output.isSome = true) ∧ (csv && tsv) = false

end Pica
