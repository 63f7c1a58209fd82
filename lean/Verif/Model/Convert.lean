import Verif.Model.Command
import Verif.Model.Concat
import Verif.Model.Utf8

/-! Models `crates/pica-cli/src/commands/convert/`. -/

namespace Pica

/-- `Format`, convert/mod.rs, as a target -/
inductive OutFormat | plus | binary | import | json | plain | xml
deriving DecidableEq, Repr

namespace Convert

/-- tag, occurrence, space and subfields, e.g. binary.rs:29-37 -/
def fieldBody (f : Field) : Bytes :=
  f.tag ++ writeOcc f.occ ++ [SP] ++ f.subfields.flatMap Subfield.write

/-- `BinaryWriter::write_byte_record`, binary.rs:24-44 -/
def binaryRecord (r : Record) : Bytes := r.flatMap (fun f => fieldBody f ++ [RS]) ++ [0x1D]

/-- `ImportWriter::write_byte_record`, import.rs:24-48 -/
def importRecord (r : Record) : Bytes :=
  [0x27, 0x1D, LF] ++ r.flatMap (fun f => [RS] ++ fieldBody f ++ [LF])

/-- `value.replace(b"$", b"$$")` -/
def plainValue (v : Bytes) : Bytes := v.flatMap (fun b => if b == 0x24 then [0x24, 0x24] else [b])

/-- plain.rs:30-46 -/
def plainField (f : Field) : Bytes :=
  f.tag ++ writeOcc f.occ ++ [SP] ++
    f.subfields.flatMap (fun s => [0x24, s.code] ++ plainValue s.value) ++ [LF]

/-- `PlainWriter::write_byte_record`, plain.rs:25-50 -/
def plainRecord (r : Record) : Bytes := r.flatMap plainField

/-- `serde_json`: escapes inside of a string (not part of the repository) -/
def jsonEscape (b : Byte) : Bytes :=
  if b == 0x22 then [0x5C, 0x22]
  else if b == 0x5C then [0x5C, 0x5C]
  else if b == 0x08 then [0x5C, 0x62]
  else if b == 0x09 then [0x5C, 0x74]
  else if b == 0x0A then [0x5C, 0x6E]
  else if b == 0x0C then [0x5C, 0x66]
  else if b == 0x0D then [0x5C, 0x72]
  else if b < 0x20 then [0x5C, 0x75, 0x30, 0x30] ++ hexByte b
  else [b]

/-- a JSON string -/
def jsonString (v : Bytes) : Bytes := [0x22] ++ v.flatMap jsonEscape ++ [0x22]

/-- a JSON array -/
def jsonArray (items : List Bytes) : Bytes := [0x5B] ++ (items.intersperse [0x2C]).flatten ++ [0x5D]

/-- json.rs:35-60: tag and occurrence are ASCII; the occurrence is displayed with
its slash (occurrence.rs:149-153); `lossy` is `to_string` of a value -/
def jsonField (lossy : Bytes → Bytes) (f : Field) : Bytes :=
  jsonArray ([jsonString f.tag,
      match f.occ with
      | some o => jsonString (SLASH :: o)
      | none => bs "null"] ++
    f.subfields.flatMap (fun s => [jsonString [s.code], jsonString (lossy s.value)]))

/-- json.rs:28-63 -/
def jsonRecord (lossy : Bytes → Bytes) (r : Record) : Bytes := jsonArray (r.map (jsonField lossy))

/-- the data of a `record` element, xml.rs:55-95: the occurrence is not used;
`none` is the panic of `to_str().unwrap()` -/
def xmlRecord (r : Record) : Option (List (Bytes × List (Byte × Bytes))) :=
  if r.all (fun f => f.subfields.all (fun s => utf8Valid s.value)) then
    some (r.map (fun f => (f.tag, f.subfields.map (fun s => (s.code, s.value)))))
  else none

end Convert

/-- the options of `Convert`, convert/mod.rs.  `xmlText` is the text of a `record`
element as written by `quick_xml`, `xmlHead` and `xmlTail` are the texts around
the records. -/
structure ConvertCmd where
  skip : Bool
  to : OutFormat
  lossy : Bytes → Bytes
  xmlText : List (Bytes × List (Byte × Bytes)) → Bytes
  xmlHead : Bytes
  xmlTail : Bytes

/-- what has been written, and the number of records -/
structure ConvertState where
  out : Bytes
  count : Nat
deriving DecidableEq, Repr

namespace ConvertCmd

/-- `write_byte_record` of the chosen writer; `none` is a panic -/
def write (c : ConvertCmd) (s : ConvertState) (r : ByteRecord) : Option ConvertState :=
  match c.to with
  | .plus => some ⟨s.out ++ r.write, s.count + 1⟩
  | .binary => some ⟨s.out ++ Convert.binaryRecord r.record, s.count + 1⟩
  | .import => some ⟨s.out ++ Convert.importRecord r.record, s.count + 1⟩
  | .plain => some ⟨s.out ++ Convert.plainRecord r.record, s.count + 1⟩
  | .json =>
    if s.count > 0 then some ⟨s.out ++ [0x2C] ++ Convert.jsonRecord c.lossy r.record, s.count + 1⟩
    else some ⟨s.out ++ Convert.jsonRecord c.lossy r.record, s.count + 1⟩
  | .xml =>
    match Convert.xmlRecord r.record with
    | none => none
    | some t => some ⟨s.out ++ c.xmlText t, s.count + 1⟩

/-- what the constructor of the writer writes, json.rs:24 and xml.rs:24-47 -/
def head (c : ConvertCmd) : Bytes :=
  match c.to with
  | .json => [0x5B]
  | .xml => c.xmlHead
  | _ => []

/-- what `finish` writes, json.rs:72-75 and xml.rs:96-101 -/
def tail (c : ConvertCmd) : Bytes :=
  match c.to with
  | .json => [0x5D]
  | .xml => c.xmlTail
  | _ => []

/-- the body of the loop over the records, convert/mod.rs:103-114 -/
def step (c : ConvertCmd) (s : ConvertState) (r : ByteRecord) : Step ConvertState :=
  match c.write s r with
  | none => .panic
  | some s' => .next s'

/-- `Convert::execute`, convert/mod.rs:73-118, for the only supported source format -/
def run (c : ConvertCmd) (files : List (String × Bytes)) : LoopResult Bytes :=
  match filesLoop c.skip id c.step files ⟨c.head, 0⟩ with
  | .ok s => .ok (s.out ++ c.tail)
  | .err e s => .err e s.out
  | .panic => .panic

end ConvertCmd
end Pica
