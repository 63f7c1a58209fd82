import Verif.Base.Bytes

/-!
# PICA+ primitives: data types, decoder and encoder

Models `src/primitives/{tag,occurrence,subfield,field,record,parse}.rs`.
Borrowed (`TagRef`, `FieldRef`, ..) and owned (`Tag`, `Field`, ..) variants
hold the same bytes and have the same `write_to`; one Lean type stands for
both.
-/

namespace Pica

/-- `SubfieldRef(SubfieldCode, SubfieldValueRef)`, src/primitives/subfield.rs:500-506.
The code is a `char` in Rust; `as_byte` (subfield.rs:85) truncates it to a
byte.  Every code that passes `SubfieldCode::new` or the parser is ASCII, so
the model stores the byte. -/
structure Subfield where
  code : Byte
  value : Bytes
deriving DecidableEq, Repr

/-- `FieldRef { tag, occurrence, subfields }`, src/primitives/field.rs:16-23. -/
structure Field where
  tag : Bytes
  occ : Option Bytes
  subfields : List Subfield
deriving DecidableEq, Repr

/-- `RecordRef(Vec<FieldRef>)`, src/primitives/record.rs:12-17. -/
abbrev Record := List Field

/-! ## Decoder: src/primitives/parse.rs -/

open Parser

/-- `parse_subfield_code`, parse.rs:13-19 -/
def pSubfieldCode : Parser Byte := oneOf isAlnum

/-- The bytes at which a value ends, parse.rs:26 -/
def isSep (b : Byte) : Bool := b == US || b == RS

/-- `parse_subfield_value_ref`, parse.rs:23-29 -/
def pSubfieldValue : Parser Bytes := takeTill0 isSep

/-- `parse_subfield_ref`, parse.rs:32-38 -/
def pSubfield : Parser Subfield :=
  map (fun cv => ⟨cv.1, cv.2⟩) (preceded (byte US) (seq pSubfieldCode pSubfieldValue))

/-- `one_of(*b"012")`, parse.rs:45 -/
def isTag0 (b : Byte) : Bool := b == 0x30 || b == 0x31 || b == 0x32
/-- last byte of a tag, parse.rs:48 -/
def isTag3 (b : Byte) : Bool := isUpper b || b == 0x40

/-- `parse_tag_ref`, parse.rs:41-53 (`.take()` returns the consumed bytes) -/
def pTag : Parser Bytes :=
  map Prod.snd
    (withTaken (seq (oneOf isTag0) (seq (oneOf isDigit) (seq (oneOf isDigit) (oneOf isTag3)))))

/-- `parse_occurrence_ref`, parse.rs:57-63 -/
def pOccurrence : Parser Bytes := takeWhileMN 2 3 isDigit

/-- `parse_field_ref`, parse.rs:66-82 -/
def pField : Parser Field :=
  map (fun x => ⟨x.1, x.2.1, x.2.2.2.1⟩)
    (seq pTag
      (seq (opt (preceded (byte SLASH) pOccurrence))
        (seq (byte SP) (seq (repeat0 pSubfield) (byte RS)))))

/-- `parse_record_ref`, parse.rs:86-92 -/
def pRecord : Parser Record := terminated (repeat1 pField) (byte LF)

/-- `TagRef::from_bytes`, tag.rs:104-112 -/
def Tag.fromBytes (b : Bytes) : Option Bytes := parseAll pTag b
/-- `OccurrenceRef::from_bytes`, occurrence.rs:81-89 -/
def Occurrence.fromBytes (b : Bytes) : Option Bytes := parseAll pOccurrence b
/-- `SubfieldRef::from_bytes`, subfield.rs:549-557 -/
def Subfield.fromBytes (b : Bytes) : Option Subfield := parseAll pSubfield b
/-- `FieldRef::from_bytes`, field.rs:86-95 -/
def Field.fromBytes (b : Bytes) : Option Field := parseAll pField b
/-- `RecordRef::from_bytes`, record.rs:69-78 -/
def Record.fromBytes (b : Bytes) : Option Record := parseAll pRecord b

/-! ## Validating constructors -/

/-- `SubfieldCode::new`, subfield.rs:41-49 (`char::is_ascii_alphanumeric`) -/
def SubfieldCode.new (c : Char) : Option Byte :=
  if c.toNat < 128 ∧ isAlnum (UInt8.ofNat c.toNat) then some (UInt8.ofNat c.toNat) else none

/-- `SubfieldValueRef::new`, subfield.rs:183-194.  The argument is a `&str`;
searching for an ASCII char is searching for its byte. -/
def SubfieldValue.new (v : Bytes) : Option Bytes :=
  if v.contains US || v.contains RS then none else some v

/-- `SubfieldRef::new`, subfield.rs:522-530 -/
def Subfield.new (c : Char) (v : Bytes) : Option Subfield :=
  match SubfieldValue.new v with
  | none => none
  | some v =>
    match SubfieldCode.new c with
    | none => none
    | some c => some ⟨c, v⟩

/-- `FieldRef::new`, field.rs:43-68 -/
def Field.new (tag : Bytes) (occ : Option Bytes) (subs : List (Char × Bytes)) : Option Field :=
  match Tag.fromBytes tag with
  | none => none
  | some tag =>
    match occ with
    | none =>
      match subs.mapM (fun s => Subfield.new s.1 s.2) with
      | none => none
      | some subs => some ⟨tag, none, subs⟩
    | some o =>
      match Occurrence.fromBytes o with
      | none => none
      | some o =>
        match subs.mapM (fun s => Subfield.new s.1 s.2) with
        | none => none
        | some subs => some ⟨tag, some o, subs⟩

/-- `RecordRef::new`, record.rs:41-55 -/
def Record.new (fs : List (Bytes × Option Bytes × List (Char × Bytes))) : Option Record :=
  fs.mapM (fun f => Field.new f.1 f.2.1 f.2.2)

/-! ## Encoder -/

/-- `SubfieldRef::write_to`, subfield.rs:639-642 -/
def Subfield.write (s : Subfield) : Bytes := [US, s.code] ++ s.value

/-- `OccurrenceRef::write_to`, occurrence.rs:126-128 -/
def writeOcc : Option Bytes → Bytes
  | none => []
  | some o => SLASH :: o

/-- `FieldRef::write_to`, field.rs:261-275 -/
def Field.write (f : Field) : Bytes :=
  f.tag ++ writeOcc f.occ ++ [SP] ++ f.subfields.flatMap Subfield.write ++ [RS]

/-- `RecordRef::write_to`, record.rs:183-193: nothing is written for a record
without fields -/
def Record.write (r : Record) : Bytes :=
  if r.isEmpty then [] else r.flatMap Field.write ++ [LF]

/-! ## Levels -/

/-- `Level`, tag.rs:15-22 -/
inductive Level | main | local | copy
deriving DecidableEq, Repr

/-- `TagRef::level`, tag.rs:125-132; `none` is a panic (index out of bounds or
`unreachable!()`). -/
def Tag.level : Bytes → Option Level
  | [] => none
  | b :: _ =>
    if b == 0x30 then some .main
    else if b == 0x31 then some .local
    else if b == 0x32 then some .copy
    else none

/-- `FieldRef::level`, field.rs:211-213 -/
def Field.level (f : Field) : Option Level := Tag.level f.tag

end Pica
