import Verif.Model.Record

/-!
# UTF-8 validation and string records

`std::str::from_utf8` is not part of the repository; `utf8Valid` follows the
documented table of well-formed byte sequences (Unicode, table 3-7), which the
standard library implements.  `Verif/Lemmas/Utf8.lean` proves it equivalent to
"is the encoding of a sequence of Unicode scalar values".
-/

namespace Pica

/-- continuation byte -/
def isCont (b : Byte) : Bool := 0x80 ≤ b && b ≤ 0xBF

/-- allowed second byte of a three byte sequence -/
def second3 (b0 b1 : Byte) : Bool :=
  if b0 == 0xE0 then 0xA0 ≤ b1 && b1 ≤ 0xBF
  else if b0 == 0xED then 0x80 ≤ b1 && b1 ≤ 0x9F
  else isCont b1

/-- allowed second byte of a four byte sequence -/
def second4 (b0 b1 : Byte) : Bool :=
  if b0 == 0xF0 then 0x90 ≤ b1 && b1 ≤ 0xBF
  else if b0 == 0xF4 then 0x80 ≤ b1 && b1 ≤ 0x8F
  else isCont b1

/-- `std::str::from_utf8(b).is_ok()` -/
def utf8Valid : Bytes → Bool
  | [] => true
  | b0 :: r =>
    if b0 < 0x80 then utf8Valid r
    else if 0xC2 ≤ b0 && b0 ≤ 0xDF then
      match r with
      | b1 :: r => isCont b1 && utf8Valid r
      | _ => false
    else if 0xE0 ≤ b0 && b0 ≤ 0xEF then
      match r with
      | b1 :: b2 :: r => second3 b0 b1 && isCont b2 && utf8Valid r
      | _ => false
    else if 0xF0 ≤ b0 && b0 ≤ 0xF4 then
      match r with
      | b1 :: b2 :: b3 :: r => second4 b0 b1 && isCont b2 && isCont b3 && utf8Valid r
      | _ => false
    else false

/-- `SubfieldRef::validate`, src/primitives/subfield.rs:609-616 -/
def Subfield.validate (s : Subfield) : Bool :=
  if s.value.all (· < 0x80) then true else utf8Valid s.value

/-- `FieldRef::validate`, src/primitives/field.rs:232-238 -/
def Field.validate (f : Field) : Bool := f.subfields.all Subfield.validate

/-- `RecordRef::validate`, src/primitives/record.rs:154-160 -/
def Record.validate (r : Record) : Bool := r.all Field.validate

end Pica
