import Verif.Model.Exit
import Verif.Model.Writer

/-!
# Outputs that may fail

Models the writers of `src/writer.rs`, of the commands and of
`crates/pica-cli/src/commands/convert/*.rs` over outputs whose calls of `write` may
take only a part of the data, be interrupted, or fail.  `BufWriter` and `LineWriter`
(which is inside of `Stdout`) of the standard library are modelled as far as they hold
data back; `write_all` is the loop over `write`.
-/

namespace Pica

/-- what a call of `Write::write` gives -/
inductive WriteResult
  | took (n : Nat)
  | interrupted
  | fail (k : IoKind)
deriving DecidableEq, Repr

/-- a writer with state `W`: `write`, `flush`, and what happens when it is dropped;
`left` bounds the number of interruptions to come -/
structure Out (W : Type) where
  write : Bytes → W → WriteResult × W
  flush : W → Option IoKind × W
  close : W → W
  left : W → Nat

/-- `write_all`, and the loop of `BufWriter::flush_buf`: an error, the bytes that have not
been taken, and the writer.  Each step takes a byte or is an interruption. -/
def writeLoop {W : Type} (o : Out W) : Nat → Bytes → W → Option IoKind × Bytes × W
  | 0, d, w => (if d.isEmpty then none else some .other, d, w)
  | n + 1, d, w =>
    if d.isEmpty then (none, [], w)
    else
      match o.write d w with
      | (.took 0, w') => (some .other, d, w')
      | (.took (k + 1), w') => writeLoop o n (d.drop (k + 1)) w'
      | (.interrupted, w') => writeLoop o n d w'
      | (.fail k, w') => (some k, d, w')

/-- `write_all` -/
def Out.writeAll {W : Type} (o : Out W) (d : Bytes) (w : W) : Option IoKind × Bytes × W :=
  writeLoop o (d.length + o.left w + 1) d w

/-! ## files -/

/-- the result of a system call -/
inductive WriteEvent
  /-- at most `n` bytes are written -/
  | accept (n : Nat)
  | interrupted
  /-- e.g. no space is left on the device -/
  | fail (k : IoKind)
deriving DecidableEq, Repr

/-- a file, pipe or device: what it has received, and the results of the next calls of
`write`; when they are used up everything is written -/
structure Sink where
  got : Bytes
  events : List WriteEvent
deriving DecidableEq, Repr

/-- `File`, and the device behind standard output; `flush` does nothing -/
def sinkOut : Out Sink where
  write d s :=
    match s.events with
    | [] => (.took d.length, ⟨s.got ++ d, []⟩)
    | .accept n :: es => (.took (min n d.length), ⟨s.got ++ d.take n, es⟩)
    | .interrupted :: es => (.interrupted, ⟨s.got, es⟩)
    | .fail k :: es => (.fail k, ⟨s.got, es⟩)
  flush s := (none, s)
  close s := s
  left s := s.events.length

/-! ## buffers -/

/-- `BufWriter` -/
structure Buffered (W : Type) where
  cap : Nat
  buf : Bytes
  inner : W
deriving DecidableEq, Repr

variable {W : Type}

/-- `BufWriter::flush_buf`: what has not been written stays in the buffer -/
def Buffered.flushBuf (o : Out W) (b : Buffered W) : Option IoKind × Buffered W :=
  ((o.writeAll b.buf b.inner).1, ⟨b.cap, (o.writeAll b.buf b.inner).2.1, (o.writeAll b.buf b.inner).2.2⟩)

/-- `BufWriter::write` after the buffer has been made empty if necessary -/
def Buffered.put (o : Out W) (d : Bytes) (b : Buffered W) : WriteResult × Buffered W :=
  if d.length ≥ b.cap then ((o.write d b.inner).1, ⟨b.cap, b.buf, (o.write d b.inner).2⟩)
  else (.took d.length, ⟨b.cap, b.buf ++ d, b.inner⟩)

/-- `BufWriter::write` -/
def Buffered.write (o : Out W) (d : Bytes) (b : Buffered W) : WriteResult × Buffered W :=
  if d.length < b.cap - b.buf.length then (.took d.length, ⟨b.cap, b.buf ++ d, b.inner⟩)
  else if d.length > b.cap - b.buf.length then
    match b.flushBuf o with
    | (some k, b') => (.fail k, b')
    | (none, b') => b'.put o d
  else b.put o d

/-- `flush` of a `BufWriter` and a `LineWriter` -/
def Buffered.flush (o : Out W) (b : Buffered W) : Option IoKind × Buffered W :=
  match b.flushBuf o with
  | (some k, b') => (some k, b')
  | (none, b') => ((o.flush b'.inner).1, ⟨b'.cap, b'.buf, (o.flush b'.inner).2⟩)

/-- `drop` of a `BufWriter`: the buffer is written, errors are ignored; standard output
is dropped in this way when the process ends -/
def Buffered.close (o : Out W) (b : Buffered W) : Buffered W :=
  ⟨b.cap, (b.flushBuf o).2.buf, o.close (b.flushBuf o).2.inner⟩

/-- `BufWriter` -/
def bufOut (o : Out W) : Out (Buffered W) where
  write := Buffered.write o
  flush := Buffered.flush o
  close := Buffered.close o
  left b := o.left b.inner

/-- the number of bytes up to the last line feed -/
def lastLine (d : Bytes) : Nat := d.length - (d.reverse.takeWhile (fun c => c != LF)).length

/-- the part of the data that a `LineWriter` buffers after `flushed` of `idx` bytes have
been written -/
def lineTail (cap flushed idx : Nat) (d : Bytes) : Bytes :=
  if flushed ≥ idx then d.drop flushed
  else if idx - flushed ≤ cap then (d.take idx).drop flushed
  else
    let area := (d.drop flushed).take cap
    if area.contains LF then area.take (lastLine area) else area

/-- `LineWriter::write` when the data have a line feed: the buffer is written, then the
complete lines, and the rest is put into the buffer as far as it fits -/
def Buffered.writeLines (o : Out W) (d : Bytes) (b : Buffered W) : WriteResult × Buffered W :=
  match b.flushBuf o with
  | (some k, b') => (.fail k, b')
  | (none, b') =>
    match o.write (d.take (lastLine d)) b'.inner with
    | (.took 0, w) => (.took 0, ⟨b'.cap, b'.buf, w⟩)
    | (.took n, w) =>
      let tail := (lineTail b'.cap n (lastLine d) d).take (b'.cap - b'.buf.length)
      (.took (n + tail.length), ⟨b'.cap, b'.buf ++ tail, w⟩)
    | (r, w) => (r, ⟨b'.cap, b'.buf, w⟩)

/-- `LineWriter::write` -/
def Buffered.lineWrite (o : Out W) (d : Bytes) (b : Buffered W) : WriteResult × Buffered W :=
  if d.contains LF then b.writeLines o d
  else if b.buf.getLast? = some LF then
    match b.flushBuf o with
    | (some k, b') => (.fail k, b')
    | (none, b') => b'.write o d
  else b.write o d

/-- `LineWriter` -/
def lineOut (o : Out W) : Out (Buffered W) where
  write := Buffered.lineWrite o
  flush := Buffered.flush o
  close := Buffered.close o
  left b := o.left b.inner

/-! ## the writers -/

/-- write the pieces in turn; the first error is returned (`?`, or `unwrap` in
convert/xml.rs) -/
def writePieces (o : Out W) : List Bytes → W → Option IoKind × W
  | [], w => (none, w)
  | p :: ps, w =>
    match o.writeAll p w with
    | (some k, _, w') => (some k, w')
    | (none, _, w') => writePieces o ps w'

/-- the pieces and, if the writer does so, `flush` -/
def writeOut (o : Out W) (flushes : Bool) (pieces : List Bytes) (w : W) : Option IoKind × W :=
  match writePieces o pieces w with
  | (some k, w') => (some k, w')
  | (none, w') => if flushes then o.flush w' else (none, w')

/-- the ways in which the commands write:
* `file`, `stdout`: `PlainWriter`, writer.rs:114-168, and the writers of print.rs:49-54,
  invalid.rs:54-63 and convert/{plain,json,binary,import}.rs: a `BufWriter`, flushed at the
  end; also `csv::Writer` in select.rs:110-126, frequency.rs:139-146 and hash.rs:55-62, which
  has a buffer of its own and is flushed
* `gzipFile`, `gzipStdout`: `GzipWriter`, writer.rs:170-225, no buffer, `try_finish` (222)
  does not flush
* `xmlFile`, `xmlStdout`: convert/xml.rs:12-49, a `BufWriter` that is not flushed in
  `finish` (96-101)
* `direct`, `directStdout`: count.rs:67-77,148, no buffer, flushed
* `checkFile`: check/writer/mod.rs:34-37,67-70, a `csv::Writer` over a `BufWriter`,
  flushed (54-56, 87-89); to standard output it is as `stdout` -/
inductive WriterKind
  | file | stdout | gzipFile | gzipStdout | xmlFile | xmlStdout | direct | directStdout | checkFile
deriving DecidableEq, Repr

/-- how a command ends with respect to its output -/
inductive OutEnd
  | ok
  | err (k : IoKind)
  | panic
deriving DecidableEq, Repr

/-- the errors of the writer for XML are unwrapped -/
def WriterKind.ended (k : WriterKind) : Option IoKind → OutEnd
  | none => .ok
  | some e => match k with
    | .xmlFile | .xmlStdout => .panic
    | _ => .err e

/-- the data arrive in the device at the latest when the writers are dropped; a panic
aborts the process before (Cargo.toml:60) -/
def closing (o : Out W) (arrived : W → Bytes) (e : OutEnd) (w : W) : OutEnd × Bytes :=
  match e with
  | .panic => (.panic, arrived w)
  | e => (e, arrived (o.close w))

/-- what arrives in the device: `cap` is the size of a `BufWriter`, `lcap` that of the
buffer of standard output -/
def WriterKind.run (k : WriterKind) (cap lcap : Nat) (pieces : List Bytes) (s : Sink) : OutEnd × Bytes :=
  match k with
  | .file =>
    let r := writeOut (bufOut sinkOut) true pieces ⟨cap, [], s⟩
    closing (bufOut sinkOut) (fun w => w.inner.got) (k.ended r.1) r.2
  | .stdout =>
    let r := writeOut (bufOut (lineOut sinkOut)) true pieces ⟨cap, [], ⟨lcap, [], s⟩⟩
    closing (bufOut (lineOut sinkOut)) (fun w => w.inner.inner.got) (k.ended r.1) r.2
  | .gzipFile =>
    let r := writeOut sinkOut false pieces s
    closing sinkOut Sink.got (k.ended r.1) r.2
  | .gzipStdout =>
    let r := writeOut (lineOut sinkOut) false pieces ⟨lcap, [], s⟩
    closing (lineOut sinkOut) (fun w => w.inner.got) (k.ended r.1) r.2
  | .xmlFile =>
    let r := writeOut (bufOut sinkOut) false pieces ⟨cap, [], s⟩
    closing (bufOut sinkOut) (fun w => w.inner.got) (k.ended r.1) r.2
  | .xmlStdout =>
    let r := writeOut (bufOut (lineOut sinkOut)) false pieces ⟨cap, [], ⟨lcap, [], s⟩⟩
    closing (bufOut (lineOut sinkOut)) (fun w => w.inner.inner.got) (k.ended r.1) r.2
  | .direct =>
    let r := writeOut sinkOut true pieces s
    closing sinkOut Sink.got (k.ended r.1) r.2
  | .directStdout =>
    let r := writeOut (lineOut sinkOut) true pieces ⟨lcap, [], s⟩
    closing (lineOut sinkOut) (fun w => w.inner.got) (k.ended r.1) r.2
  | .checkFile =>
    let r := writeOut (bufOut (bufOut sinkOut)) true pieces ⟨lcap, [], ⟨cap, [], s⟩⟩
    closing (bufOut (bufOut sinkOut)) (fun w => w.inner.inner.got) (k.ended r.1) r.2

end Pica
