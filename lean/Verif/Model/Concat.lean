import Verif.Model.Command

/-! Models `crates/pica-cli/src/commands/concat.rs` and `invalid.rs`. -/

namespace Pica

/-- `Strategy`, concat.rs:65-74 -/
inductive Strategy | idn | hash
deriving DecidableEq, Repr

/-- the two hexadecimal digits of a byte, `{b:02x}` -/
def hexByte (b : Byte) : Bytes :=
  let digit (n : UInt8) : Byte := if n < 10 then 0x30 + n else 0x57 + n
  [digit (b / 16), digit (b % 16)]

/-- the options of `Concat`, concat.rs:14-63.  `lossy` is `to_string` of a byte
string, `sha` is SHA-256; `E` and `o` are those of the static path `003@.0`. -/
structure ConcatCmd where
  skip : Bool
  unique : Bool
  strategy : Strategy
  tee : Bool
  E : Env
  o : Opts
  lossy : Bytes → Bytes
  sha : Bytes → Bytes

/-- what has been written, and the keys seen -/
structure ConcatState where
  out : Bytes
  tee : Option Bytes
  seen : List Bytes
deriving DecidableEq, Repr

namespace ConcatCmd

/-- `record_key`, concat.rs:76-87; `none` is a panic of `expect` -/
def key (c : ConcatCmd) (r : ByteRecord) : Option Bytes :=
  match c.strategy with
  | .idn =>
    match r.record.ppn c.E c.o with
    | some (some v) => some (c.lossy v)
    | _ => none
  | .hash => some ((c.sha r.shaInput).flatMap hexByte)

/-- concat.rs:134-139 -/
def emit (s : ConcatState) (r : ByteRecord) : ConcatState :=
  { s with
    out := s.out ++ r.write
    tee := match s.tee with
      | some t => some (t ++ r.write)
      | none => none }

/-- concat.rs:120-140 -/
def body (c : ConcatCmd) (s : ConcatState) (r : ByteRecord) : Step ConcatState :=
  if c.unique then
    match c.key r with
    | none => .panic
    | some k =>
      if s.seen.contains k || k.isEmpty then .next s
      else .next (emit { s with seen := k :: s.seen } r)
  else .next (emit s r)

/-- `Concat::execute`, concat.rs:89-153 -/
def run (c : ConcatCmd) (files : List (String × Bytes)) : LoopResult ConcatState :=
  filesLoop c.skip id c.body files ⟨[], if c.tee then some [] else none, []⟩

end ConcatCmd

/-- the loop of `Invalid::execute` over a file, invalid.rs:70-87; each step
consumes at least one byte, so the length of the input is enough fuel -/
def invalidLoop : Nat → Bytes → Bytes → Bytes
  | 0, _, out => out
  | fuel + 1, input, out =>
    let (buf, rest) := readUntil input
    if buf.isEmpty then out
    else if (ByteRecord.fromBytes buf).isSome then invalidLoop fuel rest out
    else invalidLoop fuel rest (out ++ buf)

/-- `Invalid::execute`, invalid.rs:62-96: the bytes written -/
def invalidRun : List (String × Bytes) → Bytes → Bytes
  | [], out => out
  | (_, content) :: fs, out => invalidRun fs (invalidLoop (content.length + 1) content out)

end Pica
