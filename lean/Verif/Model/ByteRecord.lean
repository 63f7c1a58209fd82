import Verif.Model.TagMatcher
import Verif.Model.Utf8

/-! Models `src/record.rs`. -/

namespace Pica

/-- `ByteRecord { raw_data, record }`, record.rs:16-19 -/
structure ByteRecord where
  raw : Option Bytes
  record : Record
deriving DecidableEq, Repr

/-- a `--keep`/`--discard` predicate -/
abbrev FieldPred := TagMatcher × OccMatcher

namespace ByteRecord

/-- `ByteRecord::from_bytes`, record.rs:38-45 -/
def fromBytes (b : Bytes) : Option ByteRecord :=
  match Record.fromBytes b with
  | some r => some ⟨some b, r⟩
  | none => none

/-- `From<RecordRef>`, record.rs:266-288 -/
def ofRecord (r : Record) : ByteRecord := ⟨none, r⟩

/-- `ByteRecord::write_to`, record.rs:68-73 -/
def write (b : ByteRecord) : Bytes :=
  match b.raw with
  | some data => data
  | none => b.record.write

/-- `ByteRecord::retain`, record.rs:91-94 (`RecordRef::retain`,
primitives/record.rs:137-139, is `Vec::retain`) -/
def retain (p : Field → Bool) (b : ByteRecord) : ByteRecord := ⟨none, b.record.filter p⟩

/-- the loop of `keep`, record.rs:124-134 -/
def keepPred : List FieldPred → Field → Bool
  | [], _ => false
  | (t, o) :: ps, f => if t.isMatch f.tag && o.isMatch f.occ then true else keepPred ps f

/-- the loop of `discard`, record.rs:166-175 -/
def discardPred : List FieldPred → Field → Bool
  | [], _ => true
  | (t, o) :: ps, f => if t.isMatch f.tag && o.isMatch f.occ then false else discardPred ps f

/-- `ByteRecord::keep`, record.rs:119-136 -/
def keep (ps : List FieldPred) (b : ByteRecord) : ByteRecord :=
  if ps.isEmpty then b else b.retain (keepPred ps)

/-- `ByteRecord::discard`, record.rs:161-177 -/
def discard (ps : List FieldPred) (b : ByteRecord) : ByteRecord :=
  if ps.isEmpty then b else b.retain (discardPred ps)

/-- `PartialEq`, record.rs:258-263 -/
def eq (a b : ByteRecord) : Bool :=
  match a.raw, b.raw with
  | some x, some y => x == y
  | _, _ => a.record == b.record

/-- The byte string fed to the hasher by `Hash::hash`, record.rs:290-302.
Hashing a `&[u8]` and a `Vec<u8>` of the same bytes is the same. -/
def hashInput (b : ByteRecord) : Bytes :=
  match b.raw with
  | some data => data
  | none => b.write

/-- The byte string fed to SHA-256 by `ByteRecord::sha256`, record.rs:200-210 -/
def shaInput (b : ByteRecord) : Bytes := b.write

/-- mutation of the fields through `DerefMut`, record.rs:222-227: the cached
bytes stay as they are -/
def derefMut (f : Record → Record) (b : ByteRecord) : ByteRecord := ⟨b.raw, f b.record⟩

end ByteRecord

/-- `StringRecord::try_from`, record.rs:333-336.  A `StringRecord` is a newtype
of `ByteRecord`; the model uses the same type. -/
def StringRecord.tryFrom (b : ByteRecord) : Option ByteRecord :=
  if b.record.validate then some b else none

end Pica
