import Verif.Model.Exit
import Verif.Model.FilterCmd
import Verif.Model.Count
import Verif.Model.Concat
import Verif.Model.Explode
import Verif.Model.Split
import Verif.Model.Slice
import Verif.Model.Partition
import Verif.Model.Convert
import Verif.Model.Describe
import Verif.Model.Frequency
import Verif.Model.Sample
import Verif.Model.Select
import Verif.Model.Print
import Verif.Model.Check

/-!
# Inputs that come in pieces and may fail

Models `src/reader.rs` and the loops of the commands over sources whose calls of
`read` give pieces of any size, are interrupted, or fail.  A source that cannot be
opened is an error as well.  The loop of the standard library's
`BufRead::read_until` is modelled, so that the buffer of `BufReader` is no longer
invisible.  Failures of the output are not modelled.
-/

namespace Pica

/-- what a call of `Read::read` gives -/
inductive ReadEvent
  /-- `Ok(n)` with these bytes; no bytes mean end of file -/
  | data (b : Bytes)
  /-- `ErrorKind::Interrupted` -/
  | interrupted
  /-- any other error, e.g. a damaged gzip file -/
  | fail (k : IoKind)
deriving DecidableEq, Repr

/-- `BufReader`: what is left in its buffer, and the results of the next calls of
`read`; when they are used up each call gives end of file -/
structure BufSource where
  buf : Bytes
  events : List ReadEvent
deriving DecidableEq, Repr

/-- `read_until(b'\n', buf)` of the standard library on a `BufReader`: look for a
line feed in the buffer; without one take the whole buffer and fill it again.
`acc` is what has been taken so far. -/
def readUntilFrom (buf acc : Bytes) : List ReadEvent → Except IoKind Bytes × BufSource
  | [] =>
    if buf.contains LF then (.ok (acc ++ (readUntil buf).1), ⟨(readUntil buf).2, []⟩)
    else (.ok (acc ++ buf), ⟨[], []⟩)
  | e :: es =>
    if buf.contains LF then (.ok (acc ++ (readUntil buf).1), ⟨(readUntil buf).2, e :: es⟩)
    else
      match e with
      | .data b => if b.isEmpty then (.ok (acc ++ buf), ⟨[], es⟩) else readUntilFrom b (acc ++ buf) es
      | .interrupted => readUntilFrom [] (acc ++ buf) es
      | .fail k => (.error k, ⟨[], es⟩)

/-- `ReadPicaError`, reader.rs:14-21, with the I/O variant -/
inductive SourceErr where
  | record (e : ReadErr)
  | io (k : IoKind)
deriving DecidableEq, Repr

/-- `ReadPicaError::skip_parse_err`, reader.rs:27-29 -/
def SourceErr.skipParse (e : SourceErr) (skip : Bool) : Bool :=
  match e with
  | .record e => e.skipParse skip
  | .io _ => false

/-- `Reader`, reader.rs:122-127 -/
structure SourceReader where
  inner : BufSource
  line : Nat
  source : Option String
deriving DecidableEq, Repr

/-- `Reader::new`, reader.rs:131-147 -/
def SourceReader.new (events : List ReadEvent) (source : Option String) : SourceReader :=
  ⟨⟨[], events⟩, 0, source.map (fun s => if s == "-" then "<stdin>" else s)⟩

/-- `next_byte_record`, reader.rs:206-229 -/
def SourceReader.nextByte (rd : SourceReader) : Option (Except SourceErr ByteRecord) × SourceReader :=
  let line := rd.line + 1
  match readUntilFrom rd.inner.buf [] rd.inner.events with
  | (.error k, inner) => (some (.error (.io k)), ⟨inner, line, rd.source⟩)
  | (.ok buf, inner) =>
    if buf.length = 0 then (none, ⟨inner, line, rd.source⟩)
    else
      match ByteRecord.fromBytes buf with
      | some r => (some (.ok r), ⟨inner, line, rd.source⟩)
      | none => (some (.error (.record (.parse (parseMsg line rd.source)))), ⟨inner, line, rd.source⟩)

/-- the bytes that a call brings, and the call itself -/
def ReadEvent.size : ReadEvent → Nat
  | .data d => d.length + 1
  | .interrupted => 1
  | .fail _ => 1

/-- a bound for the number of items: the bytes and the calls that are left -/
def BufSource.size (b : BufSource) : Nat := b.buf.length + (b.events.map ReadEvent.size).sum

/-- why a command ends with an error -/
inductive RunError where
  /-- an invalid line -/
  | record (e : ReadErr)
  /-- reading has failed -/
  | read (k : IoKind)
  /-- an I/O error that is passed on as such: opening has failed -/
  | io (k : IoKind)
deriving DecidableEq, Repr

/-- the conversions to `CliError`, error.rs:22-44: `e.into()` in the loops, `?`
after `from_path` -/
def RunError.toCli : RunError → CliError
  | .record _ => .readPica none
  | .read k => .readPica (some k)
  | .io k => .io k

/-- how the inner loop over a source ends -/
inductive SourceEnd (S : Type) where
  | eof (s : S)
  | stop (s : S)
  | err (e : RunError) (s : S)
  | panic
deriving DecidableEq, Repr

/-- the error of a command for an error of the reader -/
def SourceErr.toRun : SourceErr → RunError
  | .record e => .record e
  | .io k => .read k

/-- `while let Some(result) = reader.next_byte_record() { match result {..} }`, e.g.
filter.rs:226-262 -/
def sourceLoop {S : Type} (skip : Bool) (onSkip : S → S) (body : S → ByteRecord → Step S) :
    Nat → SourceReader → S → SourceEnd S
  | 0, _, s => .eof s
  | n + 1, rd, s =>
    match rd.nextByte with
    | (none, _) => .eof s
    | (some (.error e), rd') =>
      if e.skipParse skip then sourceLoop skip onSkip body n rd' (onSkip s) else .err e.toRun s
    | (some (.ok r), rd') =>
      match body s r with
      | .next s' => sourceLoop skip onSkip body n rd' s'
      | .stop s' => .stop s'
      | .panic => .panic

/-- the name given on the command line, and the result of `from_path`,
reader.rs:100-121 -/
abbrev Source := String × Except IoKind (List ReadEvent)

/-- what a command with a record loop does: the parameters of the loop, what is
written at the end of the command (`none` is a panic), and what has been written if
it ends with an error -/
structure CmdLoop (S O : Type) where
  skip : Bool
  onSkip : S → S
  body : S → ByteRecord → Step S
  init : S
  finish : S → Option O
  part : S → O

/-- outcome of a command -/
inductive RunResult (O : Type) where
  | ok (o : O)
  | err (e : RunError) (o : O)
  | panic
deriving DecidableEq, Repr

namespace CmdLoop
variable {S O : Type}

/-- the command on inputs that do not fail -/
def run (c : CmdLoop S O) (files : List (String × Bytes)) : LoopResult O :=
  match filesLoop c.skip c.onSkip c.body files c.init with
  | .ok s => match c.finish s with
    | none => .panic
    | some o => .ok o
  | .err e s => .err e (c.part s)
  | .panic => .panic

/-- the end of the command -/
def finished (c : CmdLoop S O) (s : S) : RunResult O :=
  match c.finish s with
  | none => .panic
  | some o => .ok o

/-- `'outer: for filename in filenames`, e.g. filter.rs:223-263: a source that
cannot be opened ends the command when its turn comes -/
def sources (c : CmdLoop S O) : List Source → S → RunResult O
  | [], s => c.finished s
  | (_, .error k) :: _, s => .err (.io k) (c.part s)
  | (name, .ok es) :: rest, s =>
    match sourceLoop c.skip c.onSkip c.body (BufSource.size ⟨[], es⟩ + 1) (SourceReader.new es (some name)) s with
    | .eof s' => c.sources rest s'
    | .stop s' => c.finished s'
    | .err e s' => .err e (c.part s')
    | .panic => .panic

/-- the command on sources that may fail -/
def runSources (c : CmdLoop S O) (srcs : List Source) : RunResult O := c.sources srcs c.init

end CmdLoop

/-! ## the commands -/

/-- filter.rs:161-275 -/
def FilterCmd.cmd (c : FilterCmd) : CmdLoop (FilterOut × Nat) (FilterOut × Nat) :=
  ⟨c.skip, id, selBody c.test (fun x r => limitStep c.limit (x.2 + 1) (c.emit x.1 r, x.2 + 1)),
    (⟨[], if c.tee then some [] else none⟩, 0), some, id⟩

/-- concat.rs:89-153 -/
def ConcatCmd.cmd (c : ConcatCmd) : CmdLoop ConcatState ConcatState :=
  ⟨c.skip, id, c.body, ⟨[], if c.tee then some [] else none, []⟩, some, id⟩

/-- explode.rs:148-252 -/
def ExplodeCmd.cmd (c : ExplodeCmd) : CmdLoop (Bytes × Nat) (Bytes × Nat) :=
  ⟨c.skip, id, c.body, ([], 0), some, id⟩

/-- split.rs:49-136 -/
def SplitCmd.cmd (c : SplitCmd) : CmdLoop SplitState SplitState :=
  ⟨c.skip, id, selBody c.sel.test (fun s r => limitStep c.limit (c.step s r).count (c.step s r)),
    ⟨Store.create [] (c.name 0), 0, 0⟩, some, id⟩

/-- slice.rs:83-164 -/
def SliceCmd.cmd (c : SliceCmd) : CmdLoop SliceState SliceState :=
  ⟨c.skip, c.onSkip, selBody c.sel.test c.act, ⟨c.rangeEnd, 0, 0, []⟩, some, id⟩

/-- partition.rs:58-155 -/
def PartitionCmd.cmd (c : PartitionCmd) : CmdLoop PartitionState PartitionState :=
  ⟨c.skip, id, selBody c.sel.test c.body, ⟨[], 0⟩, some, id⟩

/-- print.rs:36-118 -/
def PrintCmd.cmd (c : PrintCmd) : CmdLoop PrintState PrintState :=
  ⟨c.skip, id, selBody (PrintCmd.test c.sel)
      (resultBody c.limit PrintState.count (fun r => PrintCmd.record c.translit r.record)
        (fun s t => ⟨s.out ++ t, s.count + 1⟩)), ⟨[], 0⟩, some, id⟩

/-- hash.rs:44-124 -/
def HashCmd.cmd (c : HashCmd) : CmdLoop HashState HashState :=
  ⟨c.skip, id, selBody c.sel.test
      (resultBody c.limit HashState.count c.row (fun s x => ⟨s.out ++ [x], s.count + 1⟩)), ⟨[], 0⟩, some, id⟩

/-- select.rs:128-240 -/
def SelectCmd.cmd (c : SelectCmd) : CmdLoop SelectState SelectState :=
  ⟨c.skip, id, selBody c.sel.test
      (resultBody c.limit SelectState.count (fun r => c.query.run c.E c.qo r.record) c.step),
    ⟨[], [], 0⟩, some, id⟩

/-- count.rs:59-151: nothing is written before the end -/
def CountCmd.cmd (c : CountCmd) : CmdLoop CountState Bytes :=
  ⟨c.skip, id, selBody c.sel.test (fun s r => .next (CountCmd.step s r)), ⟨0, 0, 0⟩,
    fun s => some (c.report s), fun _ => []⟩

/-- describe.rs:47-195 -/
def DescribeCmd.cmd (c : DescribeCmd) : CmdLoop DescribeState Description :=
  ⟨c.skip, id,
    selBody c.sel.test (fun s r => limitStep c.limit (DescribeState.count (c.step s r)) (c.step s r)),
    ⟨[], 0⟩, fun s => some (c.frame s.fields), fun _ => ⟨[], []⟩⟩

/-- frequency.rs:112-242 -/
def FreqCmd.cmd (c : FreqCmd) : CmdLoop FreqState (List (Row × Nat)) :=
  ⟨c.skip, id, selBody c.sel.test
      (resultBody c.limit FreqState.count (fun r => c.query.run c.E c.qo r.record) c.step),
    ⟨[], 0⟩, fun s => some (c.emit 0 (sortBy (FreqCmd.le c.reverse) (c.iter s.table))), fun _ => []⟩

/-- sample.rs:46-128 -/
def SampleCmd.cmd (c : SampleCmd) : CmdLoop SampleState Bytes :=
  ⟨c.skip, id, selBody c.sel.test (fun s r => limitStep c.limit (c.step s r).count (c.step s r)),
    ⟨[], 0⟩, fun s => SampleCmd.output s.reservoir, fun _ => []⟩

/-- convert/mod.rs:73-118 -/
def ConvertCmd.cmd (c : ConvertCmd) : CmdLoop ConvertState Bytes :=
  ⟨c.skip, id, c.step, ⟨c.head, 0⟩, fun s => some (s.out ++ c.tail), ConvertState.out⟩

/-- check/mod.rs:50-150 -/
def CheckCmd.cmd (c : CheckCmd) : CmdLoop CheckState (List Report) :=
  ⟨c.skip, id, selBody c.sel.test c.body, ⟨c.prepared, [], 0⟩,
    fun s => some (s.out ++ s.rulesets.flatMap (RuleSet.finish c.C)), CheckState.out⟩

/-- the loop of `Invalid::execute` over a source, invalid.rs:70-87: the error and the
bytes written -/
def invalidSource : Nat → BufSource → Bytes → Option IoKind × Bytes
  | 0, _, out => (none, out)
  | n + 1, b, out =>
    match readUntilFrom b.buf [] b.events with
    | (.error k, _) => (some k, out)
    | (.ok buf, b') =>
      if buf.isEmpty then (none, out)
      else if (ByteRecord.fromBytes buf).isSome then invalidSource n b' out
      else invalidSource n b' (out ++ buf)

/-- `Invalid::execute`, invalid.rs:62-96; both errors are passed on by `?` on an
`io::Result`, so that a failure while reading is a `CliError::IO` as well -/
def invalidSources : List Source → Bytes → RunResult Bytes
  | [], out => .ok out
  | (_, .error k) :: _, out => .err (.io k) out
  | (_, .ok es) :: rest, out =>
    match invalidSource (BufSource.size ⟨[], es⟩ + 1) ⟨[], es⟩ out with
    | (some k, out') => .err (.io k) out'
    | (none, out') => invalidSources rest out'

end Pica
