import Verif.Model.Record

/-! Models the owned counterparts of the record parts: `Tag`, `Occurrence`, `Subfield`, `Field` and
`Record` in `src/primitives`.  The borrowed types (`TagRef`, …) are those of `Verif.Model.Record`. -/

namespace Pica

/-- `Tag`, tag.rs:230-233 -/
structure OTag where
  bytes : Bytes
deriving DecidableEq, Repr

/-- `Occurrence`, occurrence.rs:155-159 -/
structure OOcc where
  bytes : Bytes
deriving DecidableEq, Repr

/-- `Subfield` with its `SubfieldValue`, subfield.rs:312-316, 670-672 -/
structure OSubfield where
  code : Byte
  value : Bytes
deriving DecidableEq, Repr

/-- `Field`, field.rs:303-310 -/
structure OField where
  tag : OTag
  occ : Option OOcc
  subfields : List OSubfield
deriving DecidableEq, Repr

/-- `Record`, record.rs:196-199 -/
structure ORecord where
  fields : List OField
deriving DecidableEq, Repr

/-! ## Conversions -/

/-- `From<TagRef> for Tag`, tag.rs:296-314 -/
def OTag.from (t : Bytes) : OTag := ⟨t⟩
/-- `From<OccurrenceRef> for Occurrence`, occurrence.rs:247-265 -/
def OOcc.from (o : Bytes) : OOcc := ⟨o⟩
/-- `From<SubfieldRef> for Subfield`, subfield.rs:756-776, 391-408 -/
def OSubfield.from (s : Subfield) : OSubfield := ⟨s.code, s.value⟩
/-- `From<FieldRef> for Field`, field.rs:395-412 -/
def OField.from (f : Field) : OField := ⟨.from f.tag, f.occ.map .from, f.subfields.map .from⟩
/-- `From<RecordRef> for Record`, record.rs:237-255 -/
def ORecord.from (r : Record) : ORecord := ⟨r.map .from⟩

/-! ## Constructors -/

/-- `Tag::new`, tag.rs:252-254 -/
def OTag.new (t : Bytes) : Option OTag := (Tag.fromBytes t).map .from
/-- `Occurrence::new`, occurrence.rs:179-183 -/
def OOcc.new (o : Bytes) : Option OOcc := (Occurrence.fromBytes o).map .from
/-- `Subfield::new`, subfield.rs:688-693 -/
def OSubfield.new (c : Char) (v : Bytes) : Option OSubfield := (Subfield.new c v).map .from
/-- `Field::new`, field.rs:329-355 -/
def OField.new (tag : Bytes) (occ : Option Bytes) (subs : List (Char × Bytes)) : Option OField :=
  match OTag.new tag with
  | none => none
  | some tag =>
    match (match occ with
      | some o => (OOcc.new o).map some
      | none => some none) with
    | none => none
    | some occ =>
      match subs.mapM (fun s => OSubfield.new s.1 s.2) with
      | none => none
      | some subs => some ⟨tag, occ, subs⟩

/-- `SubfieldValueRef::from_bytes`, subfield.rs:234-244; any bytes, while `SubfieldValueRef::new` takes a text -/
def SubfieldValue.fromBytes (b : Bytes) : Option Bytes := Parser.parseAll pSubfieldValue b

/-! ## Writing -/

/-- `Subfield::write_to`, subfield.rs:750-753 -/
def OSubfield.write (s : OSubfield) : Bytes := US :: s.code :: s.value
/-- `Field::write_to`, field.rs:378-392, with `Tag::write_to`, tag.rs:291-293, and
`Occurrence::write_to`, occurrence.rs:236-238 -/
def OField.write (f : OField) : Bytes :=
  f.tag.bytes ++ (match f.occ with | some o => SLASH :: o.bytes | none => []) ++ [SP] ++
    f.subfields.flatMap OSubfield.write ++ [RS]
/-- `Record::write_to`, record.rs:224-234 -/
def ORecord.write (r : ORecord) : Bytes :=
  if r.fields.isEmpty then [] else r.fields.flatMap OField.write ++ [LF]

/-! ## Comparison of borrowed and owned values -/

/-- `PartialEq<Tag> for TagRef`, tag.rs:354-372 (`PartialEq<TagRef> for Tag`, tag.rs:334-352, is the
same) -/
def tagEq (t : Bytes) (o : OTag) : Bool := t == o.bytes
/-- `PartialEq<Occurrence> for OccurrenceRef`, occurrence.rs:285-303 -/
def occEq (a : Bytes) (o : OOcc) : Bool := a == o.bytes
/-- `PartialEq<Subfield> for SubfieldRef`, subfield.rs:778-796, 471-489 -/
def subfieldEq (s : Subfield) (o : OSubfield) : Bool := s.code == o.code && s.value == o.value
/-- `PartialEq` of two vectors: same length, and equal elements at the same positions -/
def vecEq {α β : Type} (eq : α → β → Bool) : List α → List β → Bool
  | [], [] => true
  | a :: as, b :: bs => eq a b && vecEq eq as bs
  | _, _ => false
/-- `PartialEq<Field> for FieldRef`, field.rs:414-426 (`PartialEq<FieldRef> for Field`,
field.rs:428-433, calls it) -/
def fieldEq (f : Field) (o : OField) : Bool :=
  let occ := match f.occ, o.occ with
    | some a, some b => occEq a b
    | none, none => true
    | _, _ => false
  tagEq f.tag o.tag && occ && vecEq subfieldEq f.subfields o.subfields
/-- `PartialEq<Record> for RecordRef`, record.rs:257-261 (and record.rs:263-267, which compares the
owned fields with the borrowed ones) -/
def recordEq (r : Record) (o : ORecord) : Bool := vecEq fieldEq r o.fields

/-! ## Access -/

/-- `FieldRef::contains`, field.rs:165-169 -/
def Field.contains (f : Field) (code : Char) : Bool :=
  f.subfields.any (fun s => Char.ofNat s.code.toNat == code)
/-- `FieldRef::find`, field.rs:191-196 -/
def Field.find (f : Field) (p : Subfield → Bool) : Option Subfield := f.subfields.find? p
/-- `Level::from_str`, tag.rs:27-34 -/
def Level.fromStr (s : String) : Option Level :=
  if s = "main" then some .main else if s = "local" then some .local else if s = "copy" then some .copy else none

end Pica
