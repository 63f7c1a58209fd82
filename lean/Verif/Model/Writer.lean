import Verif.Model.Reader
import Verif.Model.Record
import Verif.Model.Files

/-!
# `WriterBuilder`, `src/writer.rs`, and `ReaderBuilder::from_path`, `src/reader.rs`

The compression of `flate2` is a parameter.  Opening, writing and reading files
never fails.  What is written reaches the file when the writer is finished.
Path names have no trailing slash.
-/

namespace Pica

/-- `WriterBuilder`, writer.rs:23-27 -/
structure WBuilder where
  append : Bool
  gzip : Bool
deriving DecidableEq, Repr

namespace WBuilder

/-- `WriterBuilder::new`, writer.rs:30-33 -/
def new : WBuilder := ⟨false, false⟩

/-- `WriterBuilder::gzip`, writer.rs:90-94; `none` if the assertion fails -/
def setGzip (b : WBuilder) (yes : Bool) : Option WBuilder :=
  if !yes || (yes ^^ b.append) then some { b with gzip := yes } else none

/-- `WriterBuilder::append`, writer.rs:107-111; `none` if the assertion fails -/
def setAppend (b : WBuilder) (yes : Bool) : Option WBuilder :=
  if !yes || (yes ^^ b.gzip) then some { b with append := yes } else none

end WBuilder

/-- a call of a builder method -/
inductive WCall
  | gzip (yes : Bool)
  | append (yes : Bool)
deriving DecidableEq, Repr

/-- the builder after a call; `none` if it panics -/
def WBuilder.call (b : WBuilder) : WCall → Option WBuilder
  | .gzip yes => b.setGzip yes
  | .append yes => b.setAppend yes

/-- the builder after a sequence of calls -/
def WBuilder.calls : List WCall → WBuilder → Option WBuilder
  | [], b => some b
  | c :: cs, b =>
    match b.call c with
    | none => none
    | some b' => WBuilder.calls cs b'

/-! ## the commands -/

/-- the commands that write PICA+ with a `WriterBuilder` -/
inductive WCommand
  | filter | slice | concat | sample | split | partition | explode | convert
deriving DecidableEq, Repr

/-- what becomes of the options `--gzip` and `--append` -/
inductive WOutcome
  /-- rejected by the command line parser -/
  | usage
  | panic
  | writer (b : WBuilder)
deriving DecidableEq, Repr

/-- result of a chain of builder calls -/
def WOutcome.ofCalls (cs : List WCall) : WOutcome :=
  match WBuilder.calls cs WBuilder.new with
  | none => .panic
  | some b => .writer b

/-- command line options and builder calls: filter.rs:126-134 and 175-178 (also
182-185), slice.rs:56-62 and 95-98, concat.rs:95-97 (no `--gzip`), sample.rs:60-62,
split.rs:74-75 and 112-113, partition.rs:125-127, explode.rs:155-157 (no
`--append`), convert/mod.rs:86 (neither) -/
def WCommand.writer (c : WCommand) (gzip append : Bool) : WOutcome :=
  match c with
  | .filter => if gzip && append then .usage else .ofCalls [.append append, .gzip gzip]
  | .slice => .ofCalls [.gzip gzip, .append append]
  | .concat => if gzip then .usage else .ofCalls [.append append]
  | .sample | .split | .partition | .explode => if append then .usage else .ofCalls [.gzip gzip]
  | .convert => if gzip || append then .usage else .ofCalls []

/-! ## files -/

/-- `flate2`: `GzEncoder`, and `GzDecoder`, which reads the first member of a file -/
structure Gzip where
  compress : Bytes → Bytes
  firstMember : Bytes → Bytes
  /-- the decoder gives back what has been compressed and ignores what follows -/
  decode : ∀ d rest, firstMember (compress d ++ rest) = d

/-- the part of a path after the last slash -/
def fileName (path : Bytes) : Bytes := (path.reverse.takeWhile (fun c => c != 0x2F)).reverse

/-- `Path::extension` of the standard library: the part of the file name after the
last dot, if it has a dot that is not its first character -/
def extension (path : Bytes) : Option Bytes :=
  let name := fileName path
  if name = bs ".." then none
  else
    let ext := (name.reverse.takeWhile (fun c => c != 0x2E)).reverse
    if name.length ≤ ext.length + 1 then none else some ext

/-- a writer for a file -/
structure FileWriter where
  path : Bytes
  gz : Bool
deriving DecidableEq, Repr

/-- contents of files; `none` if there is no such file -/
abbrev FileMap := Bytes → Option Bytes

/-- replace the content of a file -/
def FileMap.set (fs : FileMap) (path content : Bytes) : FileMap := fun p => if p = path then some content else fs p

/-- `WriterBuilder::from_path`, writer.rs:38-57 -/
def WBuilder.fromPath (b : WBuilder) (path : Bytes) (fs : FileMap) : FileWriter × FileMap :=
  (⟨path, b.gzip || extension path == some (bs "gz")⟩,
    fs.set path (if b.append then (fs path).getD [] else []))

/-- the writer after the data has been written and `finish` has been called,
writer.rs:138-149 and 205-222 -/
def FileWriter.finish (z : Gzip) (w : FileWriter) (data : Bytes) (fs : FileMap) : FileMap :=
  fs.set w.path ((fs w.path).getD [] ++ if w.gz then z.compress data else data)

/-- write records to a file: `from_path`, `write_byte_record` for each record, and
`finish` -/
def WBuilder.writeFile (z : Gzip) (b : WBuilder) (path : Bytes) (rs : List Record) (fs : FileMap) : FileMap :=
  (b.fromPath path fs).1.finish z (rs.flatMap Record.write) (b.fromPath path fs).2

/-- write records to the path given with `--output`, or to standard output:
`from_path_or_stdout`, writer.rs:61-79, `write_byte_record` for each record, and
`finish`; `out` is what has been written to standard output -/
def WBuilder.writeOut (z : Gzip) (b : WBuilder) (path : Option Bytes) (rs : List Record) (fs : FileMap)
    (out : Bytes) : FileMap × Bytes :=
  match path with
  | some path => (b.writeFile z path rs fs, out)
  | none =>
    let data := rs.flatMap Record.write
    if b.gzip then (fs, out ++ z.compress data) else (fs, out ++ data)

/-- the bytes given to the reader by `ReaderBuilder::from_path`, reader.rs:100-121;
`none` if the file does not exist -/
def openFile (z : Gzip) (stdin : Bytes) (path : Bytes) (fs : FileMap) : Option Bytes :=
  if extension path = some (bs "gz") then (fs path).map z.firstMember
  else if path = bs "-" then some stdin
  else fs path

/-- read all records of a file -/
def readFile (z : Gzip) (stdin : Bytes) (path : Bytes) (fs : FileMap) : Option (List Item) :=
  (openFile z stdin path fs).map (fun content => readAll content none)

end Pica
