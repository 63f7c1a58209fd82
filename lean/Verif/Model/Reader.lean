import Verif.Model.ByteRecord

/-!
# The record reader

Models `src/reader.rs` over a stream that delivers a byte list and then end of
file.  I/O errors and gzip are not modelled; buffering (`BufReader`) is
invisible.
-/

namespace Pica

deriving instance DecidableEq for Except

/-- `ReadPicaError`, reader.rs:14-21, without the I/O variant and without the
source error -/
inductive ReadErr where
  | parse (msg : String)
  | utf8 (msg : String)
deriving DecidableEq, Repr

/-- `ReadPicaError::skip_parse_err`, reader.rs:27-29 -/
def ReadErr.skipParse (e : ReadErr) (skip : Bool) : Bool :=
  (match e with
    | .parse _ => true
    | .utf8 _ => false) && skip

/-- `Reader`, reader.rs:122-127: `rest` is what is left in the stream -/
structure Reader where
  rest : Bytes
  line : Nat
  source : Option String
deriving DecidableEq, Repr

/-- `Reader::new`, reader.rs:131-147 -/
def Reader.new (input : Bytes) (source : Option String) : Reader :=
  ⟨input, 0, source.map (fun s => if s == "-" then "<stdin>" else s)⟩

/-- `read_until(b'\n', buf)`: the bytes put into the buffer and the rest -/
def readUntil : Bytes → Bytes × Bytes
  | [] => ([], [])
  | b :: r =>
    if b == LF then ([b], r)
    else
      let x := readUntil r
      (b :: x.1, x.2)

/-- the message of a parse error, reader.rs:215-222 -/
def parseMsg (line : Nat) : Option String → String
  | some src => "invalid record on line " ++ toString line ++ " (" ++ src ++ ")."
  | none => "invalid record on line " ++ toString line ++ "."

/-- one item of the iteration -/
abbrev Item := Except ReadErr ByteRecord

/-- `next_byte_record`, reader.rs:206-229 -/
def Reader.nextByte (rd : Reader) : Option Item × Reader :=
  let line := rd.line + 1
  let x := readUntil rd.rest
  let rd' : Reader := ⟨x.2, line, rd.source⟩
  if x.1.length = 0 then (none, rd')
  else
    match ByteRecord.fromBytes x.1 with
    | some r => (some (.ok r), rd')
    | none => (some (.error (.parse (parseMsg line rd.source))), rd')

/-- `next_string_record`, reader.rs:260-273: the line number is taken before
`next_byte_record` increments it -/
def Reader.nextString (rd : Reader) : Option Item × Reader :=
  let line := rd.line
  match rd.nextByte with
  | (some (.ok r), rd') =>
    match StringRecord.tryFrom r with
    | some r => (some (.ok r), rd')
    | none => (some (.error (.utf8 ("invalid record on line " ++ toString line ++ "."))), rd')
  | (some (.error e), rd') => (some (.error e), rd')
  | (none, rd') => (none, rd')

/-- the outcome of the `k`-th call (counted from 0) of `next` -/
def callNo (next : Reader → Option Item × Reader) : Nat → Reader → Option Item
  | 0, rd => (next rd).1
  | k + 1, rd => callNo next k (next rd).2

/-- `while let Some(result) = reader.next..()`: the items until the first
`None`.  Each item consumes at least one byte, so the fuel suffices. -/
def collectItems (next : Reader → Option Item × Reader) : Nat → Reader → List Item
  | 0, _ => []
  | n + 1, rd =>
    match next rd with
    | (some i, rd') => i :: collectItems next n rd'
    | (none, _) => []

/-- all items of an input -/
def readAll (input : Bytes) (source : Option String) : List Item :=
  collectItems Reader.nextByte (input.length + 1) (Reader.new input source)

/-- all items of an input, read as string records -/
def readAllStrings (input : Bytes) (source : Option String) : List Item :=
  collectItems Reader.nextString (input.length + 1) (Reader.new input source)

/-- The record loop shared by the commands, e.g. count.rs:92-101,
filter.rs:224-233: errors that may be skipped are skipped, other errors end the
command, records are given to `body`, which can end the loop (`break`). -/
def recordLoop {S : Type} (skip : Bool) (body : S → ByteRecord → S × Bool) :
    List Item → S → S × Option ReadErr
  | [], s => (s, none)
  | .error e :: is, s => if e.skipParse skip then recordLoop skip body is s else (s, some e)
  | .ok r :: is, s =>
    match body s r with
    | (s', true) => (s', none)
    | (s', false) => recordLoop skip body is s'

end Pica
